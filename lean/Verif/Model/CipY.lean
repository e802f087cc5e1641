import Verif.Model.CipRow
/-
Series of src/lib/iau/ycip06a.cpp.

Generated from the source; amplitudes in hundredths of a microarcsecond (exact for every entry).
-/
namespace Verif.Cip

private def y0Series_0 : List Row := [
  r 0 10 1 2 2 (-4) 1 0 0 0 0 0 0 0 0 0,
  r 0 10 2 0 (-2) (-2) (-2) 0 0 (-2) 0 2 0 0 0 0,
  r 0 (-10) 2 (-1) (-2) 0 0 0 0 0 0 0 0 0 0 0,
  r 0 (-10) 0 0 2 0 2 0 (-2) 2 0 0 0 0 0 0,
  r 0 10 0 0 2 0 2 0 2 (-2) 0 0 0 0 0 0,
  r 10 0 0 0 2 0 2 0 (-2) 3 0 0 0 0 0 0,
  r 10 0 0 0 2 0 2 0 2 (-3) 0 0 0 0 0 0,
  r 0 (-10) 3 (-1) 0 0 0 0 0 0 0 0 0 0 0 0,
  r 0 (-10) 0 0 0 3 2 0 0 0 0 0 0 0 0 0,
  r 0 10 2 2 0 (-2) (-1) 0 0 0 0 0 0 0 0 0,
  r 0 (-10) 2 (-1) (-2) 0 1 0 0 0 0 0 0 0 0 0,
  r 0 (-10) 3 0 0 (-4) 0 0 0 0 0 0 0 0 0 0,
  r (-10) 0 0 0 0 0 2 0 0 0 0 1 0 0 0 0,
  r 0 (-10) 2 0 0 (-6) 0 0 0 0 0 0 0 0 0 0,
  r 0 10 0 1 4 (-4) 2 0 0 0 0 0 0 0 0 0,
  r 0 (-10) 1 0 0 (-6) 0 0 0 0 0 0 0 0 0 0,
  r 0 (-10) 0 2 0 0 (-2) 0 0 0 0 0 0 0 0 0,
  r 0 (-10) 2 (-1) 0 2 0 0 0 0 0 0 0 0 0 0,
  r 0 (-10) 1 0 (-2) (-4) 0 0 0 0 0 0 0 0 0 0,
  r 0 (-10) 1 0 0 0 1 0 (-10) 3 0 0 0 0 0 0,
  r 0 10 1 0 0 0 (-1) 0 (-10) 3 0 0 0 0 0 0,
  r 0 (-10) 0 1 (-2) (-2) 0 0 0 0 0 0 0 0 0 0,
  r 10 0 0 0 0 0 1 0 0 (-1) 0 2 0 0 0 0,
  r 0 (-10) 1 1 (-2) (-2) 0 0 0 0 0 0 0 0 0 0,
  r 0 11 1 0 (-2) 0 (-3) 0 0 0 0 0 0 0 0 0,
  r 0 17 0 1 (-2) 2 (-3) 0 0 0 0 0 0 0 0 0,
  r 0 (-19) 0 1 2 (-2) 0 0 0 0 0 0 0 0 0 0,
  r 0 20 1 1 (-2) 2 (-2) 0 0 0 0 0 0 0 0 0,
  r 0 20 0 0 1 (-1) 2 0 (-8) 12 0 0 0 0 0 0,
  r 0 (-20) 0 1 2 (-4) 2 0 0 0 0 0 0 0 0 0,
  r 0 20 0 0 0 0 1 0 0 2 0 (-2) 0 0 0 0,
  r 0 (-20) 0 0 0 0 1 0 0 2 (-2) 0 0 0 0 0,
  r (-20) 0 0 0 0 0 1 0 3 (-4) 0 0 0 0 0 0,
  r 0 (-20) 0 2 0 0 2 0 0 0 0 0 0 0 0 0,
  r 0 (-20) 1 (-1) 0 0 (-2) 0 0 0 0 0 0 0 0 0,
  r 0 20 1 0 (-2) 0 2 0 0 0 0 0 0 0 0 0,
  r 0 (-20) 2 1 (-2) 0 0 0 0 0 0 0 0 0 0 0,
  r (-20) 0 0 0 1 (-1) 2 0 0 (-1) 0 (-1) 0 0 0 0,
  r 0 (-20) 2 1 0 (-2) (-2) 0 0 0 0 0 0 0 0 0,
  r 0 20 0 0 1 (-1) 2 0 (-5) 7 0 0 0 0 0 0,
  r 0 (-20) 1 (-1) 2 (-3) 1 0 0 0 0 0 0 0 0 0,
  r 0 20 3 0 0 0 2 0 0 0 0 0 0 0 0 0,
  r 0 20 2 (-1) 0 2 1 0 0 0 0 0 0 0 0 0,
  r 0 (-20) 2 (-2) 0 (-2) (-2) 0 0 0 0 0 0 0 0 0,
  r 0 (-20) 3 1 2 (-2) 1 0 0 0 0 0 0 0 0 0,
  r 0 20 1 0 (-2) (-6) (-1) 0 0 0 0 0 0 0 0 0,
  r 0 20 1 (-2) 2 2 1 0 0 0 0 0 0 0 0 0,
  r 0 (-20) 1 0 (-4) (-2) (-1) 0 0 0 0 0 0 0 0 0,
  r 0 (-20) 1 (-1) (-2) (-4) (-1) 0 0 0 0 0 0 0 0 0,
  r 0 20 2 0 2 4 1 0 0 0 0 0 0 0 0 0,
  r 0 (-20) 0 1 (-2) 4 (-1) 0 0 0 0 0 0 0 0 0,
  r 0 20 2 (-1) (-2) (-2) (-1) 0 0 0 0 0 0 0 0 0,
  r (-20) 0 0 0 1 1 2 0 0 1 0 0 0 0 0 0,
  r 0 (-20) 2 1 2 2 1 0 0 0 0 0 0 0 0 0,
  r 0 20 1 (-1) 2 4 1 0 0 0 0 0 0 0 0 0,
  r 0 20 2 0 0 (-6) (-1) 0 0 0 0 0 0 0 0 0,
  r 0 20 3 0 (-2) (-6) (-1) 0 0 0 0 0 0 0 0 0,
  r 0 (-20) 1 2 2 0 1 0 0 0 0 0 0 0 0 0,
  r 0 20 0 0 2 (-2) 2 0 0 (-2) 0 2 0 0 0 0,
  r 0 20 1 0 2 (-6) 1 0 0 0 0 0 0 0 0 0,
  r 20 0 0 0 2 (-2) 1 0 (-8) 11 0 0 0 0 0 0,
  r 0 20 1 (-1) 0 4 1 0 0 0 0 0 0 0 0 0,
  r 0 (-20) 2 1 0 2 1 0 0 0 0 0 0 0 0 0,
  r 0 20 0 0 0 0 1 0 0 7 (-13) 0 0 0 0 0,
  r 0 20 2 0 0 4 1 0 0 0 0 0 0 0 0 0,
  r 0 (-20) 0 1 0 4 1 0 0 0 0 0 0 0 0 0,
  r 0 20 4 0 (-2) 0 (-1) 0 0 0 0 0 0 0 0 0,
  r 0 (-20) 1 0 4 0 1 0 0 0 0 0 0 0 0 0,
  r 10 (-10) 0 0 0 0 0 0 0 2 1 0 0 0 0 2,
  r 0 (-20) 0 0 0 0 0 0 0 1 0 (-5) 0 0 0 (-2),
  r 0 20 0 0 0 0 0 0 0 1 0 (-2) 0 0 0 (-2),
  r 20 0 0 0 0 0 0 0 0 1 0 (-2) 5 0 0 2,
  r 20 0 0 0 0 0 0 0 0 1 0 (-1) 0 0 0 (-1),
  r 0 20 0 0 0 0 0 0 0 1 0 0 0 0 0 (-1),
  r 20 0 0 0 0 0 0 0 0 1 0 1 0 0 0 1,
  r 20 0 0 0 0 0 0 0 0 2 (-7) 0 0 0 0 (-2),
  r 0 (-20) 0 0 0 0 0 0 0 2 (-4) 0 0 0 0 1,
  r 0 (-20) 0 0 0 0 0 0 0 2 0 (-5) 0 0 0 (-2),
  r 20 0 0 0 0 0 0 0 0 2 0 0 (-2) 0 0 1,
  r 0 20 0 0 0 0 0 0 0 3 (-8) 3 0 0 0 (-2),
  r 20 0 0 0 0 0 0 0 0 3 0 0 0 0 0 2,
  r 20 0 0 0 0 0 0 0 0 4 (-8) 1 5 0 0 2,
  r 0 20 0 0 0 0 0 0 0 4 (-8) 3 0 0 0 (-1),
  r 0 (-20) 0 0 0 0 0 0 0 4 (-8) 3 0 0 0 1,
  r 0 (-20) 0 0 0 0 0 0 0 4 (-7) 0 0 0 0 (-1),
  r 0 (-20) 0 0 0 0 0 0 0 4 (-6) 0 0 0 0 (-2),
  r 0 20 0 0 0 0 0 0 0 4 0 (-4) 0 0 0 2,
  r 20 0 0 0 0 0 0 0 0 5 (-10) 0 0 0 0 (-2),
  r (-20) 0 0 0 0 0 0 0 0 5 (-6) 0 0 0 0 2,
  r (-20) 0 0 0 0 0 0 0 0 7 (-9) 0 0 0 0 2,
  r (-20) 0 0 0 0 0 0 0 0 7 (-8) 0 0 0 0 2,
  r (-20) 0 0 0 0 0 0 0 0 7 (-7) 0 0 0 0 2,
  r 0 (-20) 0 0 0 0 0 0 0 9 (-17) 0 0 0 0 (-2),
  r 0 20 0 0 0 0 0 0 1 (-4) 0 0 0 0 0 (-1),
  r 0 20 0 0 0 0 0 0 1 (-2) 0 0 0 0 0 (-1),
  r 0 20 0 0 0 0 0 0 2 (-5) 0 0 0 0 0 (-1),
  r (-20) 0 0 0 0 0 0 0 3 (-8) 0 0 0 0 0 (-2),
  r 20 0 0 0 0 0 0 0 3 (-4) 0 0 0 0 0 (-2),
  r 0 (-20) 0 0 0 0 0 0 3 (-4) 0 0 0 0 0 1,
  r 20 0 0 0 0 0 0 0 4 (-5) 0 0 0 0 0 (-2),
  r 0 (-20) 0 0 0 0 0 0 4 (-5) 0 0 0 0 0 (-1),
  r (-20) 0 0 0 0 0 0 0 4 (-2) 0 0 0 0 0 0,
  r 0 (-20) 0 0 0 0 0 0 5 (-6) 0 0 0 0 0 (-1),
  r (-20) 0 0 0 0 0 0 0 5 (-5) 0 0 0 0 0 1,
  r (-20) 0 0 0 0 0 0 0 6 (-6) 0 0 0 0 0 1,
  r (-20) 0 0 0 0 0 0 0 6 (-4) 0 0 0 0 0 1,
  r 20 0 0 0 0 0 0 0 7 (-11) 0 0 0 0 0 (-1),
  r 0 (-20) 0 0 0 0 0 0 7 (-10) 0 0 0 0 0 (-1),
  r 0 20 0 0 0 0 0 0 8 (-12) 0 0 0 0 0 (-2),
  r 20 0 0 0 1 (-1) 1 0 (-5) 6 0 0 0 0 0 0,
  r 0 (-20) 0 0 1 (-1) 1 0 0 (-4) 6 0 0 0 0 0,
  r 20 0 0 0 1 (-1) 1 0 0 (-1) 0 0 0 (-1) 0 0,
  r 20 0 0 0 1 (-1) 1 0 0 (-1) 0 1 (-3) 0 0 0,
  r 0 (-20) 0 0 1 (-1) 1 0 0 1 (-4) 0 0 0 0 0,
  r 0 20 0 0 1 (-1) 1 0 1 (-3) 0 0 0 0 0 0,
  r 0 (-20) 0 0 2 (-2) 1 0 (-5) 5 0 0 0 0 0 0,
  r 0 (-20) 0 0 2 (-2) 1 0 0 (-4) 4 0 0 0 0 0,
  r 0 (-20) 0 0 2 (-2) 1 0 0 (-3) 0 3 0 0 0 0,
  r 0 20 0 0 2 (-2) 1 0 0 (-2) 0 0 0 0 0 0,
  r 0 20 0 0 2 (-2) 1 0 0 1 0 (-1) 0 0 0 0,
  r 0 (-20) 0 0 4 2 2 0 0 0 0 0 0 0 0 0,
  r 0 20 0 3 (-2) (-2) (-2) 0 0 0 0 0 0 0 0 0,
  r 0 20 1 (-1) (-2) 1 (-1) 0 0 0 0 0 0 0 0 0,
  r 0 (-20) 1 (-1) 2 1 2 0 0 0 0 0 0 0 0 0,
  r 0 20 1 0 (-2) (-2) (-2) 0 0 (-2) 0 3 0 0 0 0,
  r 20 0 1 0 (-1) (-2) (-1) 0 0 0 0 0 0 0 0 0,
  r 0 20 1 0 (-1) 0 (-1) 0 (-3) 5 0 0 0 0 0 0,
  r 20 0 1 0 (-1) 1 (-1) 0 0 1 0 0 0 0 0 0,
  r 20 0 1 0 1 1 1 0 0 1 0 0 0 0 0 0,
  r (-20) 0 1 0 3 0 3 0 0 0 0 0 0 0 0 0,
  r 0 20 1 1 (-2) (-6) (-2) 0 0 0 0 0 0 0 0 0,
  r 0 (-20) 1 1 (-2) (-3) (-2) 0 0 0 0 0 0 0 0 0,
  r 0 (-20) 1 1 2 4 2 0 0 0 0 0 0 0 0 0,
  r 0 20 2 (-2) 2 2 2 0 0 0 0 0 0 0 0 0,
  r 0 20 2 0 2 (-3) 2 0 0 0 0 0 0 0 0 0,
  r 0 20 2 1 (-2) (-6) (-2) 0 0 0 0 0 0 0 0 0,
  r 0 (-20) 2 1 0 (-4) 0 0 0 0 0 0 0 0 0 0,
  r 0 20 2 2 (-2) (-4) (-2) 0 0 0 0 0 0 0 0 0,
  r 0 (-20) 3 0 (-2) (-1) (-1) 0 0 0 0 0 0 0 0 0,
  r 0 20 3 0 (-2) 2 (-1) 0 0 0 0 0 0 0 0 0,
  r 0 (-20) 3 0 2 1 2 0 0 0 0 0 0 0 0 0,
  r 0 (-20) 3 0 4 (-2) 2 0 0 0 0 0 0 0 0 0,
  r 0 (-20) 4 (-1) (-2) (-2) (-2) 0 0 0 0 0 0 0 0 0,
  r 0 20 4 (-1) 2 0 2 0 0 0 0 0 0 0 0 0,
  r 0 (-20) 4 1 2 0 2 0 0 0 0 0 0 0 0 0,
  r 20 0 2 0 (-1) (-1) (-2) 0 0 (-1) 0 2 0 0 0 0,
  r 0 20 2 0 4 (-4) 2 0 0 0 0 0 0 0 0 0,
  r 0 20 1 (-2) (-2) 2 (-1) 0 0 0 0 0 0 0 0 0,
  r 0 20 2 (-1) (-2) 2 (-1) 0 0 0 0 0 0 0 0 0,
  r 0 20 2 0 2 (-6) 1 0 0 0 0 0 0 0 0 0,
  r 0 20 1 0 0 (-3) 0 0 0 0 0 0 0 0 0 0,
  r 0 20 3 0 0 2 (-1) 0 0 0 0 0 0 0 0 0,
  r 0 20 1 (-1) (-4) 2 (-2) 0 0 0 0 0 0 0 0 0,
  r 0 (-20) 2 0 0 (-2) (-1) 0 0 (-2) 0 3 (-1) 0 0 0,
  r 10 (-10) 1 (-2) 0 (-2) 0 0 0 0 0 0 0 0 0 0,
  r 0 20 1 0 0 (-1) (-1) 0 0 (-3) 4 0 0 0 0 0,
  r 0 20 2 (-1) 0 2 (-1) 0 0 0 0 0 0 0 0 0,
  r 20 0 0 0 2 (-2) 1 0 0 (-4) 8 (-3) 0 0 0 0,
  r 20 0 0 0 2 (-2) 1 0 0 4 (-8) 3 0 0 0 0,
  r 0 20 2 0 (-4) 2 (-1) 0 0 0 0 0 0 0 0 0,
  r 0 (-20) 1 0 0 (-2) 1 0 0 (-2) 0 2 0 0 0 0,
  r 0 20 1 0 0 (-2) (-1) 0 0 (-2) 0 2 0 0 0 0,
  r 0 (-20) 2 0 0 (-2) 1 0 0 (-5) 6 0 0 0 0 0,
  r 0 20 1 2 0 0 1 0 0 0 0 0 0 0 0 0,
  r 0 (-20) 2 0 0 (-1) 1 0 0 0 0 0 0 0 0 0,
  r 0 20 1 1 0 1 (-1) 0 0 0 0 0 0 0 0 0,
  r 0 (-20) 1 1 0 1 1 0 0 0 0 0 0 0 0 0,
  r 0 (-20) 2 0 0 (-3) 1 0 0 0 0 0 0 0 0 0,
  r 0 (-20) 1 0 0 (-1) 1 0 0 (-1) 0 1 0 0 0 0,
  r 0 (-20) 2 0 (-2) (-2) 1 0 0 0 0 0 0 0 0 0,
  r 0 (-20) 1 2 0 (-2) 0 0 0 0 0 0 0 0 0 0,
  r 0 20 1 0 (-2) 1 1 0 0 0 0 0 0 0 0 0,
  r 0 20 0 0 1 (-1) 2 0 0 (-1) 0 0 1 0 0 0,
  r 0 20 1 0 2 (-4) (-1) 0 0 0 0 0 0 0 0 0,
  r 0 (-20) 2 0 2 (-2) (-1) 0 0 0 0 0 0 0 0 0,
  r 0 20 1 0 0 (-3) (-1) 0 0 0 0 0 0 0 0 0,
  r 20 0 2 0 2 (-4) 0 0 0 0 0 0 0 0 0 0,
  r 0 20 2 0 (-2) (-2) 0 0 0 0 0 0 0 0 0 0,
  r 0 20 0 3 0 0 0 0 0 0 0 0 0 0 0 0,
  r 0 (-20) 3 0 0 2 0 0 0 0 0 0 0 0 0 0,
  r 20 0 0 0 0 0 1 0 (-3) 4 0 0 0 0 0 0,
  r 0 (-20) 0 1 0 (-4) 0 0 0 0 0 0 0 0 0 0,
  r 0 (-20) 0 0 0 0 1 0 0 (-2) 2 0 0 0 0 0,
  r 0 (-20) 3 0 2 0 0 0 0 0 0 0 0 0 0 0,
  r 0 (-20) 0 0 0 0 1 0 (-2) 2 0 0 0 0 0 0,
  r 0 20 2 0 2 (-2) 0 0 0 0 0 0 0 0 0 0,
  r 0 (-21) 0 1 2 (-2) 3 0 0 0 0 0 0 0 0 0,
  r 0 (-30) 1 1 2 (-4) 2 0 0 0 0 0 0 0 0 0,
  r 0 (-30) 0 0 0 0 1 0 2 (-2) 0 0 0 0 0 0,
  r (-20) (-10) 0 0 0 0 1 0 0 1 0 (-2) 0 0 0 0,
  r 0 (-30) 0 1 0 (-2) 2 0 0 0 0 0 0 0 0 0,
  r 0 (-30) 0 0 2 0 (-2) 0 0 0 0 0 0 0 0 0,
  r 0 30 0 0 0 1 (-2) 0 0 0 0 0 0 0 0 0,
  r (-30) 0 0 0 0 0 2 0 0 (-4) 8 (-3) 0 0 0 0,
  r (-30) 0 0 0 0 0 2 0 0 4 (-8) 3 0 0 0 0,
  r 0 30 0 0 1 (-1) 2 0 0 0 (-2) 0 0 0 0 0,
  r 0 (-30) 2 0 2 1 1 0 0 0 0 0 0 0 0 0,
  r 0 (-30) 2 0 (-4) (-2) (-1) 0 0 0 0 0 0 0 0 0,
  r 0 30 2 0 (-2) (-6) (-1) 0 0 0 0 0 0 0 0 0,
  r 0 (-30) 2 (-1) 2 (-2) 1 0 0 0 0 0 0 0 0 0]

private def y0Series_1 : List Row := [
  r 0 30 1 (-2) 2 0 1 0 0 0 0 0 0 0 0 0,
  r 30 0 0 0 1 (-1) 2 0 0 (-1) 0 1 0 0 0 0,
  r 0 (-30) 0 0 2 3 1 0 0 0 0 0 0 0 0 0,
  r 0 (-30) 2 0 4 (-2) 1 0 0 0 0 0 0 0 0 0,
  r 0 (-30) 0 1 4 (-2) 1 0 0 0 0 0 0 0 0 0,
  r 0 (-30) 1 (-2) (-2) (-2) (-1) 0 0 0 0 0 0 0 0 0,
  r 30 0 0 0 0 0 1 0 5 (-8) 0 0 0 0 0 0,
  r 0 (-30) 3 0 0 (-2) 1 0 0 0 0 0 0 0 0 0,
  r 0 30 1 0 0 4 (-1) 0 0 0 0 0 0 0 0 0,
  r 0 (-30) 1 (-1) 0 (-4) (-1) 0 0 0 0 0 0 0 0 0,
  r 0 30 1 0 0 (-6) (-1) 0 0 0 0 0 0 0 0 0,
  r 30 0 2 0 (-1) (-1) (-1) 0 0 (-1) 0 2 0 0 0 0,
  r 0 (-30) 2 (-1) 2 (-1) 2 0 0 0 0 0 0 0 0 0,
  r 0 (-30) 1 0 0 (-1) (-1) 0 0 (-2) 2 0 0 0 0 0,
  r 0 30 0 0 0 0 0 0 0 0 0 0 0 0 2 2,
  r 30 0 0 0 0 0 0 0 0 0 0 0 0 2 0 1,
  r 0 30 0 0 0 0 0 0 0 0 0 0 0 2 0 2,
  r 0 30 0 0 0 0 0 0 0 0 0 0 5 0 0 2,
  r 0 (-30) 0 0 0 0 0 0 0 0 0 4 (-5) 0 0 2,
  r 30 0 0 0 0 0 0 0 0 1 (-6) 0 0 0 0 (-2),
  r 30 0 0 0 0 0 0 0 0 1 0 (-3) 0 0 0 (-1),
  r 30 0 0 0 0 0 0 0 0 1 0 (-1) 0 0 0 1,
  r (-30) 0 0 0 0 0 0 0 0 3 0 0 (-2) 0 0 2,
  r 30 0 0 0 0 0 0 0 0 4 (-8) 1 5 0 0 (-2),
  r 0 30 0 0 0 0 0 0 0 4 0 0 (-2) 0 0 2,
  r (-30) 0 0 0 0 0 0 0 0 6 (-7) 0 0 0 0 2,
  r 30 0 0 0 0 0 0 0 0 6 0 0 0 0 0 1,
  r (-30) 0 0 0 0 0 0 0 5 (-3) 0 0 0 0 0 1,
  r 0 30 0 0 0 0 0 0 8 (-16) 0 0 0 0 0 (-2),
  r (-30) 0 0 0 0 0 0 0 9 (-11) 0 0 0 0 0 (-1),
  r 30 0 0 0 1 (-1) 1 0 (-2) 1 0 0 0 0 0 0,
  r 30 0 0 0 1 (-1) 1 0 1 (-2) 0 0 0 0 0 0,
  r 0 (-30) 0 0 2 (-2) 1 0 0 (-1) 0 1 0 0 0 0,
  r 0 30 0 1 2 3 2 0 0 0 0 0 0 0 0 0,
  r 0 30 0 2 (-2) (-4) (-2) 0 0 0 0 0 0 0 0 0,
  r 0 (-30) 0 2 2 2 2 0 0 0 0 0 0 0 0 0,
  r 0 (-30) 1 0 (-2) (-2) (-2) 0 (-3) 3 0 0 0 0 0 0,
  r 0 (-30) 1 0 (-1) (-1) (-1) 0 20 (-20) 0 0 0 0 0 0,
  r 30 0 1 0 (-1) 1 (-1) 0 (-18) 17 0 0 0 0 0 0,
  r 30 0 1 0 1 (-1) 1 0 0 (-1) 0 0 0 0 0 0,
  r 0 30 1 0 2 (-2) 2 0 0 (-2) 0 2 0 0 0 0,
  r 0 (-30) 1 0 2 3 2 0 0 0 0 0 0 0 0 0,
  r 30 0 2 0 (-1) (-1) (-1) 0 0 (-1) 0 0 0 0 0 0,
  r 0 (-30) 2 0 0 (-2) (-2) 0 (-3) 3 0 0 0 0 0 0,
  r 0 30 2 0 0 (-2) (-1) 0 0 (-2) 0 4 (-5) 0 0 0,
  r 0 30 2 1 2 1 2 0 0 0 0 0 0 0 0 0,
  r 0 (-30) 2 2 2 (-2) 2 0 0 0 0 0 0 0 0 0,
  r 0 30 4 0 2 (-4) 2 0 0 0 0 0 0 0 0 0,
  r 20 10 0 0 0 0 0 0 0 2 (-6) 0 0 0 0 (-2),
  r 20 (-10) 0 0 0 0 0 0 0 3 (-5) 0 0 0 0 (-1),
  r (-10) (-20) 0 0 0 0 0 0 0 5 (-8) 0 0 0 0 (-2),
  r (-20) (-10) 0 0 0 0 0 0 0 6 (-10) 0 0 0 0 (-2),
  r 20 (-10) 0 0 0 0 0 0 1 (-4) 0 0 0 0 0 (-2),
  r 20 10 0 0 0 0 0 0 1 (-2) 0 0 0 0 0 (-2),
  r (-10) (-20) 0 0 0 0 0 0 2 (-3) 0 0 0 0 0 1,
  r 20 (-10) 0 0 2 (-2) 1 0 0 (-7) 9 0 0 0 0 0,
  r (-10) 20 1 0 (-2) 0 (-2) 0 (-10) 3 0 0 0 0 0 0,
  r (-10) (-20) 2 0 2 0 1 0 0 1 0 0 0 0 0 0,
  r 0 (-30) 1 1 4 (-2) 2 0 0 0 0 0 0 0 0 0,
  r (-20) 10 0 0 0 0 1 0 0 (-9) 17 0 0 0 0 0,
  r 0 30 0 1 0 (-4) 1 0 0 0 0 0 0 0 0 0,
  r 0 30 0 0 2 0 2 0 0 1 0 (-1) 0 0 0 0,
  r 0 (-30) 0 0 2 0 2 0 0 (-1) 0 1 0 0 0 0,
  r 0 30 0 0 2 0 2 0 (-1) 1 0 0 0 0 0 0,
  r 0 30 2 (-1) (-2) 0 (-2) 0 0 0 0 0 0 0 0 0,
  r 10 (-20) 1 0 0 (-1) 1 0 0 (-3) 4 0 0 0 0 0,
  r 0 (-30) 2 1 2 (-4) 1 0 0 0 0 0 0 0 0 0,
  r (-10) (-20) 2 0 (-1) (-1) 1 0 0 3 (-7) 0 0 0 0 0,
  r (-20) 10 2 0 0 (-2) (-1) 0 0 (-6) 8 0 0 0 0 0,
  r 0 (-30) 2 1 (-2) 0 1 0 0 0 0 0 0 0 0 0,
  r 0 30 2 0 0 (-3) (-1) 0 0 0 0 0 0 0 0 0,
  r 30 0 0 0 0 0 1 0 0 0 0 0 (-1) 0 0 0,
  r 0 30 1 (-2) 0 0 (-1) 0 0 0 0 0 0 0 0 0,
  r 0 (-30) 1 (-2) 0 (-2) 1 0 0 0 0 0 0 0 0 0,
  r 20 10 0 0 1 (-1) (-1) 0 0 (-1) 0 (-1) 0 0 0 0,
  r 0 30 2 0 0 (-2) (-1) 0 (-3) 3 0 0 0 0 0 0,
  r 0 30 0 0 0 4 2 0 0 0 0 0 0 0 0 0,
  r 0 (-30) 2 (-2) 0 (-2) 1 0 0 0 0 0 0 0 0 0,
  r (-30) 0 0 0 2 (-2) (-1) 0 (-5) 6 0 0 0 0 0 0,
  r 0 30 2 0 (-4) 2 (-2) 0 0 0 0 0 0 0 0 0,
  r 21 10 0 0 1 (-1) 2 0 0 (-1) 0 (-2) 5 0 0 0,
  r 0 40 0 0 2 (-2) (-2) 0 0 0 0 0 0 0 0 0,
  r 40 0 0 0 1 (-1) 2 0 0 (-1) 0 2 0 0 0 0,
  r 0 (-40) 2 0 0 2 2 0 0 0 0 0 0 0 0 0,
  r 0 40 2 0 2 (-1) 1 0 0 0 0 0 0 0 0 0,
  r 0 40 3 (-1) 2 0 1 0 0 0 0 0 0 0 0 0,
  r 0 40 1 1 2 1 1 0 0 0 0 0 0 0 0 0,
  r (-10) 30 0 2 (-2) 0 (-1) 0 0 0 0 0 0 0 0 0,
  r 0 (-40) 3 1 2 0 1 0 0 0 0 0 0 0 0 0,
  r 0 (-40) 0 2 2 0 1 0 0 0 0 0 0 0 0 0,
  r 0 (-40) 1 2 2 (-2) 1 0 0 0 0 0 0 0 0 0,
  r 0 (-40) 1 (-2) (-2) 0 (-2) 0 0 0 0 0 0 0 0 0,
  r 0 (-40) 4 0 0 0 0 0 0 0 0 0 0 0 0 0,
  r 40 0 0 0 0 0 0 0 0 0 0 0 1 0 0 2,
  r 0 40 0 0 0 0 0 0 0 5 (-3) 0 0 0 0 2,
  r (-40) 0 0 0 0 0 0 0 0 5 (-2) 0 0 0 0 2,
  r 0 (-40) 0 0 0 0 0 0 0 6 0 0 0 0 0 0,
  r 40 0 0 0 0 0 0 0 0 8 (-15) 0 0 0 0 (-1),
  r 0 40 0 0 0 0 0 0 2 (-6) 0 0 0 0 0 (-2),
  r 0 40 0 0 0 0 0 0 3 (-6) 0 0 0 0 0 (-1),
  r 0 (-40) 0 0 0 0 0 0 3 (-4) 0 0 0 0 0 (-1),
  r 40 0 0 0 0 0 0 0 4 (-3) 0 0 0 0 0 2,
  r (-40) 0 0 0 0 0 0 0 4 (-2) 0 0 0 0 0 1,
  r 0 (-40) 0 0 0 0 0 0 4 (-2) 0 0 0 0 0 2,
  r 0 (-40) 0 0 0 0 0 0 5 (-9) 0 0 0 0 0 (-2),
  r 0 40 0 0 0 0 0 0 5 (-5) 0 0 0 0 0 2,
  r (-40) 0 0 0 0 0 0 0 8 (-10) 0 0 0 0 0 (-1),
  r (-40) 0 0 0 0 0 0 0 8 (-8) 0 0 0 0 0 (-1),
  r (-40) 0 0 0 1 (-1) 1 0 0 (-1) 0 (-1) 2 0 0 0,
  r 40 0 0 0 2 (-2) 1 0 0 (-8) 11 0 0 0 0 0,
  r 0 (-40) 0 0 2 (-2) 1 0 0 (-2) 0 0 2 0 0 0,
  r 0 (-40) 0 0 2 (-2) 1 0 0 (-2) 0 3 0 0 0 0,
  r 0 40 0 0 4 (-1) 2 0 0 0 0 0 0 0 0 0,
  r 0 40 1 (-1) (-2) (-3) (-2) 0 0 0 0 0 0 0 0 0,
  r 0 40 1 2 (-2) (-4) (-2) 0 0 0 0 0 0 0 0 0,
  r 0 40 3 0 2 (-1) 2 0 0 0 0 0 0 0 0 0,
  r 0 (-40) 5 0 2 (-2) 2 0 0 0 0 0 0 0 0 0,
  r (-10) 30 0 0 0 0 0 0 0 2 0 (-2) 0 0 0 2,
  r 10 30 0 0 0 0 0 0 0 6 (-5) 0 0 0 0 2,
  r (-30) 10 0 0 0 0 0 0 6 (-10) 0 0 0 0 0 (-1),
  r (-10) 30 2 (-2) 2 (-2) 2 0 0 0 0 0 0 0 0 0,
  r 20 20 0 0 0 0 0 0 0 2 2 0 0 0 0 2,
  r 20 (-20) 0 0 1 (-1) 1 0 0 (-1) 0 (-2) 4 0 0 0,
  r (-20) (-20) 0 0 1 (-1) 1 0 0 (-1) 0 0 (-2) 0 0 0,
  r 0 40 2 (-2) 2 0 2 0 0 0 0 0 0 0 0 0,
  r 0 (-40) 1 1 0 2 (-1) 0 0 0 0 0 0 0 0 0,
  r 0 (-40) 0 0 2 0 2 0 1 (-1) 0 0 0 0 0 0,
  r 0 (-40) 1 1 0 (-1) 1 0 0 0 0 0 0 0 0 0,
  r 0 40 1 0 4 (-4) 2 0 0 0 0 0 0 0 0 0,
  r (-10) 30 0 0 0 0 1 0 0 (-8) 15 0 0 0 0 0,
  r 0 40 1 (-2) 0 (-2) (-1) 0 0 0 0 0 0 0 0 0,
  r 0 40 4 0 0 0 (-1) 0 0 0 0 0 0 0 0 0,
  r 0 (-40) 1 0 0 (-3) 1 0 0 0 0 0 0 0 0 0,
  r 0 (-40) 0 2 0 (-2) 0 0 0 0 0 0 0 0 0 0,
  r 40 0 1 0 (-1) 0 1 0 0 0 0 0 0 0 0 0,
  r 0 (-40) 1 0 0 4 0 0 0 0 0 0 0 0 0 0,
  r (-10) 30 1 1 0 2 0 0 0 0 0 0 0 0 0 0,
  r (-20) 20 0 0 0 0 2 0 0 (-1) 2 0 0 0 0 0,
  r 0 (-40) 1 0 2 2 0 0 0 0 0 0 0 0 0 0,
  r 0 50 1 0 (-2) 2 0 0 0 0 0 0 0 0 0 0,
  r 0 (-50) 1 0 0 2 (-2) 0 0 0 0 0 0 0 0 0,
  r 50 0 0 0 2 (-2) 2 0 (-5) 6 0 0 0 0 0 0,
  r 0 (-50) 1 1 0 0 2 0 0 0 0 0 0 0 0 0,
  r 0 50 1 0 0 (-1) 2 0 0 0 0 0 0 0 0 0,
  r 0 50 0 0 2 (-2) 2 0 (-3) 3 0 0 0 0 0 0,
  r 0 (-50) 2 1 (-2) (-2) (-1) 0 0 0 0 0 0 0 0 0,
  r 0 50 2 0 (-4) 0 (-1) 0 0 0 0 0 0 0 0 0,
  r (-50) 0 0 0 3 0 2 0 0 0 0 0 0 0 0 0,
  r 10 40 0 0 0 0 0 0 0 0 0 4 0 0 0 2,
  r 10 40 0 0 0 0 0 0 0 5 0 (-3) 0 0 0 2,
  r (-40) 10 0 0 0 0 0 0 5 (-10) 0 0 0 0 0 (-2),
  r 40 (-10) 0 0 0 0 0 0 5 (-6) 0 0 0 0 0 2,
  r (-40) (-10) 0 0 1 (-1) 1 0 0 (-1) 0 0 0 2 0 0,
  r 40 10 0 0 2 (-2) 1 (-1) 0 2 0 0 0 0 0 0,
  r 0 50 0 0 0 0 0 0 0 1 (-3) 0 0 0 0 (-2),
  r (-50) 0 0 0 0 0 0 0 0 6 (-11) 0 0 0 0 (-2),
  r (-50) 0 0 0 0 0 0 0 4 (-4) 0 0 0 0 0 1,
  r 0 (-50) 0 0 0 0 0 0 6 (-9) 0 0 0 0 0 (-1),
  r 50 0 0 0 0 0 0 0 9 (-12) 0 0 0 0 0 (-2),
  r (-50) 0 0 0 1 (-1) 1 0 0 1 0 0 0 0 0 0,
  r 0 50 0 0 2 6 2 0 0 0 0 0 0 0 0 0,
  r 0 50 3 (-1) (-2) (-1) (-2) 0 0 0 0 0 0 0 0 0,
  r 0 50 3 (-1) 2 2 2 0 0 0 0 0 0 0 0 0,
  r (-30) 20 0 0 0 0 0 0 0 1 0 3 0 0 0 2,
  r 20 30 0 0 0 0 0 0 0 2 (-5) 0 0 0 0 (-2),
  r (-30) 20 0 0 0 0 0 0 0 7 (-13) 0 0 0 0 (-2),
  r 30 20 0 0 0 0 0 0 1 0 0 0 0 0 0 2,
  r 0 (-50) 3 (-1) 2 (-2) 2 0 0 0 0 0 0 0 0 0,
  r 0 (-50) 0 1 (-2) (-1) (-2) 0 0 0 0 0 0 0 0 0,
  r 40 10 0 0 2 0 2 0 0 4 (-8) 3 0 0 0 0,
  r 40 (-10) 0 0 2 0 2 0 0 (-4) 8 (-3) 0 0 0 0,
  r 20 30 2 0 (-1) (-1) (-1) 0 0 3 (-7) 0 0 0 0 0,
  r (-20) 30 2 0 0 (-2) (-1) 0 0 (-5) 6 0 0 0 0 0,
  r 30 (-20) 2 0 0 (-2) 1 0 0 (-6) 8 0 0 0 0 0,
  r 0 (-50) 1 (-2) 0 0 1 0 0 0 0 0 0 0 0 0,
  r 0 50 2 1 0 (-4) 1 0 0 0 0 0 0 0 0 0,
  r 0 50 1 (-2) 2 (-2) 2 0 0 0 0 0 0 0 0 0,
  r 10 40 0 0 0 0 1 0 3 (-5) 0 0 0 0 0 0,
  r 0 (-50) 0 1 0 2 2 0 0 0 0 0 0 0 0 0,
  r 10 40 2 1 0 (-2) 0 0 0 0 0 0 0 0 0 0,
  r 0 50 2 0 2 0 (-1) 0 0 0 0 0 0 0 0 0,
  r 0 (-50) 1 1 0 (-4) 0 0 0 0 0 0 0 0 0 0,
  r 0 (-60) 2 0 (-2) 2 (-2) 0 0 0 0 0 0 0 0 0,
  r 0 (-60) 1 1 0 (-2) 2 0 0 0 0 0 0 0 0 0,
  r 0 (-60) 0 0 0 1 2 0 0 0 0 0 0 0 0 0,
  r 0 60 1 1 0 (-4) (-1) 0 0 0 0 0 0 0 0 0,
  r 0 60 3 0 0 2 1 0 0 0 0 0 0 0 0 0,
  r 0 (-60) 0 0 0 3 1 0 0 0 0 0 0 0 0 0,
  r 0 60 4 0 (-2) (-2) (-1) 0 0 0 0 0 0 0 0 0,
  r (-20) (-40) 0 0 0 0 0 0 0 0 0 0 3 0 0 1,
  r 40 20 0 0 0 0 0 0 0 1 (-5) 0 0 0 0 (-2),
  r 0 60 0 0 0 0 0 0 0 1 0 0 1 0 0 2,
  r 0 60 0 0 0 0 0 0 0 1 1 0 0 0 0 2,
  r (-40) (-20) 0 0 0 0 0 0 0 6 (-6) 0 0 0 0 2,
  r 40 (-20) 0 0 0 0 0 0 0 6 0 0 0 0 0 2,
  r 30 30 0 0 0 0 0 0 8 (-13) 0 0 0 0 0 1,
  r (-40) 20 0 0 0 0 0 1 0 (-4) 0 0 0 0 0 (-2),
  r 20 40 0 0 1 (-1) 1 0 0 (-1) 0 0 3 0 0 0,
  r 0 (-60) 0 0 2 (-2) 1 0 (-2) 2 0 0 0 0 0 0,
  r 60 0 0 0 2 (-2) 2 0 (-8) 11 0 0 0 0 0 0]

private def y0Series_2 : List Row := [
  r 0 (-60) 1 0 (-2) (-2) (-2) 0 0 (-2) 0 2 0 0 0 0,
  r (-40) 20 2 0 (-1) (-1) (-1) 0 0 (-1) 0 3 0 0 0 0,
  r 0 (-60) 2 0 0 (-2) (-1) 0 0 (-2) 0 0 5 0 0 0,
  r (-10) 50 0 0 0 0 0 0 0 3 (-6) 0 0 0 0 (-1),
  r 50 (-10) 0 0 0 0 0 0 0 5 0 (-2) 0 0 0 2,
  r 10 50 0 0 0 0 0 0 1 (-2) 0 0 0 0 0 1,
  r (-10) (-50) 0 0 0 0 0 0 4 (-4) 0 0 0 0 0 2,
  r (-50) (-10) 0 0 0 0 0 0 7 (-7) 0 0 0 0 0 (-1),
  r 50 10 0 0 1 (-1) 1 0 (-2) 3 0 0 0 0 0 0,
  r 0 (-60) 1 (-1) 2 (-4) 1 0 0 0 0 0 0 0 0 0,
  r 0 (-60) 0 1 0 1 0 0 0 0 0 0 0 0 0 0,
  r 0 60 1 1 0 (-4) 1 0 0 0 0 0 0 0 0 0,
  r 0 (-60) 2 1 0 (-4) (-1) 0 0 0 0 0 0 0 0 0,
  r 0 60 1 0 0 (-4) (-2) 0 0 0 0 0 0 0 0 0,
  r 40 20 0 0 0 0 1 0 0 2 (-4) 0 0 0 0 0,
  r 0 60 2 1 0 0 0 0 0 0 0 0 0 0 0 0,
  r 10 (-50) 0 0 1 (-1) (-1) 0 0 0 (-2) 0 0 0 0 0,
  r 0 60 0 0 2 2 (-1) 0 0 0 0 0 0 0 0 0,
  r 0 (-60) 0 0 0 0 1 0 0 (-1) 0 1 0 0 0 0,
  r 0 70 1 (-1) 0 0 2 0 0 0 0 0 0 0 0 0,
  r 0 70 0 1 (-2) (-4) (-1) 0 0 0 0 0 0 0 0 0,
  r 0 70 2 (-1) 2 2 1 0 0 0 0 0 0 0 0 0,
  r 70 0 0 0 1 (-1) 2 0 0 (-2) 2 0 0 0 0 0,
  r 0 70 1 0 0 1 0 0 0 0 0 0 0 0 0 0,
  r 40 30 0 0 0 0 0 0 0 4 (-8) 0 0 0 0 (-2),
  r 60 (-10) 0 0 0 0 0 0 3 (-3) 0 0 0 0 0 1,
  r (-60) (-10) 0 0 0 0 0 0 3 (-1) 0 0 0 0 0 1,
  r 70 0 0 0 0 0 0 0 0 0 0 0 3 0 0 2,
  r 0 (-70) 0 0 0 0 0 0 0 2 0 (-4) 0 0 0 (-2),
  r 0 (-70) 0 0 0 0 0 0 0 3 (-5) 0 0 0 0 (-2),
  r (-50) 20 0 0 0 0 0 0 0 3 0 1 0 0 0 2,
  r 50 (-20) 0 0 0 0 0 0 0 3 0 2 (-5) 0 0 2,
  r (-20) (-50) 0 0 0 0 0 0 0 6 (-15) 0 0 0 0 (-2),
  r 20 50 0 0 0 0 0 0 0 11 0 0 0 0 0 2,
  r 50 (-20) 0 0 0 0 0 0 2 (-3) 0 0 0 0 0 (-2),
  r (-20) (-50) 0 0 0 0 0 0 9 (-9) 0 0 0 0 0 (-1),
  r (-50) 20 0 0 1 (-1) 1 0 0 (-1) 0 3 0 0 0 0,
  r (-70) 0 0 0 1 (-1) 1 0 2 (-4) 0 (-3) 0 0 0 0,
  r 0 (-70) 2 0 (-2) (-3) (-2) 0 0 0 0 0 0 0 0 0,
  r 0 70 4 0 2 2 2 0 0 0 0 0 0 0 0 0,
  r 0 (-70) 0 1 2 4 2 0 0 0 0 0 0 0 0 0,
  r 0 (-70) 0 0 0 0 1 0 3 (-5) 0 2 0 0 0 0,
  r 70 0 0 0 1 (-1) 1 0 0 (-1) 0 (-1) 1 0 0 0,
  r 0 70 0 1 (-4) 2 (-2) 0 0 0 0 0 0 0 0 0,
  r 10 (-60) 2 0 0 (-2) (-1) 0 (-6) 8 0 0 0 0 0 0,
  r 0 70 3 0 0 (-4) 1 0 0 0 0 0 0 0 0 0,
  r 0 76 1 0 2 0 3 0 0 0 0 0 0 0 0 0,
  r 0 (-80) 0 0 0 0 1 0 0 1 0 (-1) 0 0 0 0,
  r 0 80 1 1 0 (-2) (-2) 0 0 0 0 0 0 0 0 0,
  r 0 80 1 2 (-2) (-2) (-1) 0 0 0 0 0 0 0 0 0,
  r 0 (-80) 0 1 (-2) 1 (-1) 0 0 0 0 0 0 0 0 0,
  r 0 (-80) 1 0 (-2) (-3) (-1) 0 0 0 0 0 0 0 0 0,
  r 0 (-80) 3 0 (-2) 0 (-2) 0 0 0 0 0 0 0 0 0,
  r 0 80 0 1 0 (-4) (-1) 0 0 0 0 0 0 0 0 0,
  r (-30) (-50) 0 0 0 0 1 0 3 (-7) 4 0 0 0 0 0,
  r (-30) 50 0 0 0 0 1 0 (-3) 7 (-4) 0 0 0 0 0,
  r (-30) (-50) 0 0 0 0 0 0 0 2 0 (-2) 5 0 0 2,
  r (-80) 0 0 0 0 0 0 0 0 2 0 0 1 0 0 2,
  r (-30) 50 0 0 0 0 0 0 0 2 0 2 (-5) 0 0 2,
  r 0 (-80) 0 0 0 0 0 0 0 3 (-1) 0 0 0 0 2,
  r (-50) (-30) 0 0 0 0 0 0 0 5 (-9) 0 0 0 0 (-2),
  r (-50) (-30) 0 0 0 0 0 0 0 5 (-5) 0 0 0 0 2,
  r (-50) 30 0 0 0 0 0 0 3 (-5) 0 0 0 0 0 1,
  r 0 80 0 0 4 (-4) 1 0 0 0 0 0 0 0 0 0,
  r 20 60 0 0 0 0 0 0 4 (-7) 0 0 0 0 0 (-1),
  r (-60) 20 0 0 0 0 0 0 7 (-9) 0 0 0 0 0 (-1),
  r (-70) 10 0 0 0 0 0 0 2 (-2) 0 0 0 0 0 1,
  r 10 70 0 0 0 0 0 0 7 (-11) 0 0 0 0 0 (-2),
  r 0 (-80) 2 (-1) (-2) (-4) (-2) 0 0 0 0 0 0 0 0 0,
  r 0 80 3 0 0 (-2) (-1) 0 0 0 0 0 0 0 0 0,
  r 0 (-80) 2 (-1) 0 0 0 0 0 0 0 0 0 0 0 0,
  r 0 (-90) 1 (-1) 0 (-1) 0 0 0 0 0 0 0 0 0 0,
  r 0 (-90) 4 0 2 (-2) 1 0 0 0 0 0 0 0 0 0,
  r 0 90 2 1 (-2) (-4) (-1) 0 0 0 0 0 0 0 0 0,
  r 0 90 1 0 (-2) 4 (-1) 0 0 0 0 0 0 0 0 0,
  r 0 (-90) 1 (-1) 2 (-1) 2 0 0 0 0 0 0 0 0 0,
  r (-90) 0 0 0 0 0 0 0 0 2 0 0 (-1) 0 0 2,
  r (-50) (-40) 0 0 0 0 0 0 0 3 0 (-3) 0 0 0 2,
  r 0 (-90) 0 0 1 (-1) 1 0 (-2) 2 0 0 0 0 0 0,
  r 0 90 3 0 (-2) (-6) (-2) 0 0 0 0 0 0 0 0 0,
  r 0 90 5 0 2 0 2 0 0 0 0 0 0 0 0 0,
  r (-30) 60 0 0 0 0 0 0 0 8 (-15) 0 0 0 0 (-2),
  r 70 (-20) 0 0 0 0 0 0 1 2 0 0 0 0 0 2,
  r (-70) (-20) 0 0 0 0 0 0 6 (-6) 0 0 0 0 0 (-1),
  r 0 (-90) 1 2 2 0 2 0 0 0 0 0 0 0 0 0,
  r 0 (-90) 2 0 0 (-2) 1 0 (-3) 3 0 0 0 0 0 0,
  r 0 90 0 1 0 (-2) (-2) 0 0 0 0 0 0 0 0 0,
  r 0 90 1 0 (-2) (-2) 1 0 0 0 0 0 0 0 0 0,
  r 10 80 1 (-1) 0 (-2) 0 0 0 0 0 0 0 0 0 0,
  r 0 91 1 0 2 (-2) 0 0 0 0 0 0 0 0 0 0,
  r 0 (-100) 1 0 0 2 2 0 0 0 0 0 0 0 0 0,
  r 0 100 2 0 (-2) 0 2 0 0 0 0 0 0 0 0 0,
  r 0 100 0 2 (-2) (-2) (-1) 0 0 0 0 0 0 0 0 0,
  r 0 100 1 0 (-4) 2 (-1) 0 0 0 0 0 0 0 0 0,
  r 0 100 0 1 2 (-4) 1 0 0 0 0 0 0 0 0 0,
  r 0 (-100) 1 0 4 0 2 0 0 0 0 0 0 0 0 0,
  r (-40) (-60) 0 0 0 0 0 0 3 (-9) 4 0 0 0 0 (-2),
  r 40 60 0 0 0 0 0 0 3 (-5) 4 0 0 0 0 2,
  r (-80) (-20) 0 0 0 0 0 0 2 0 0 0 0 0 0 1,
  r 100 0 0 0 0 0 0 0 7 (-10) 0 0 0 0 0 (-2),
  r 100 0 0 0 1 (-1) 1 0 0 (-9) 15 0 0 0 0 0,
  r 0 100 1 (-1) 2 4 2 0 0 0 0 0 0 0 0 0,
  r (-100) 0 1 0 1 (-2) 1 0 0 0 0 0 0 0 0 0,
  r 0 (-100) 3 0 0 (-4) (-1) 0 0 0 0 0 0 0 0 0,
  r 0 100 0 2 0 (-2) 1 0 0 0 0 0 0 0 0 0,
  r 0 100 1 0 0 1 1 0 0 0 0 0 0 0 0 0,
  r 80 (-20) 0 0 0 0 1 0 0 0 0 (-1) 0 0 0 0,
  r 100 0 0 0 0 0 1 0 (-2) 3 0 0 0 0 0 0,
  r 0 100 0 0 0 0 1 0 (-1) 1 0 0 0 0 0 0,
  r 0 (-110) 1 (-1) (-2) 2 (-2) 0 0 0 0 0 0 0 0 0,
  r 0 110 3 0 2 2 1 0 0 0 0 0 0 0 0 0,
  r (-50) 60 1 (-2) 2 (-2) 1 0 0 0 0 0 0 0 0 0,
  r (-40) (-70) 0 0 0 0 0 0 0 4 (-7) 0 0 0 0 (-2),
  r (-90) (-20) 0 0 0 0 0 0 5 (-5) 0 0 0 0 0 (-1),
  r 60 (-50) 0 0 0 0 0 0 0 0 0 0 0 0 2 1,
  r 0 110 0 0 0 0 0 0 0 7 (-8) 3 0 0 0 2,
  r 0 110 3 0 2 (-4) 2 0 0 0 0 0 0 0 0 0,
  r 0 110 2 (-1) (-2) (-2) (-2) 0 0 0 0 0 0 0 0 0,
  r (-110) 0 1 0 1 0 1 0 0 0 0 0 0 0 0 0,
  r 0 (-110) 2 1 2 2 2 0 0 0 0 0 0 0 0 0,
  r (-110) 0 0 0 3 0 3 0 0 0 0 0 0 0 0 0,
  r (-20) 90 2 0 0 (-2) 1 0 (-6) 8 0 0 0 0 0 0,
  r 0 110 2 1 0 0 1 0 0 0 0 0 0 0 0 0,
  r 0 115 0 0 0 0 3 0 0 0 0 0 0 0 0 0,
  r 0 (-120) 1 1 2 2 1 0 0 0 0 0 0 0 0 0,
  r (-40) 80 0 0 0 0 0 0 0 0 3 0 0 0 0 2,
  r 40 80 0 0 0 0 0 0 0 1 (-4) 0 0 0 0 (-2),
  r 20 (-100) 0 0 0 0 0 0 2 1 0 0 0 0 0 1,
  r (-100) 20 0 0 0 0 0 0 2 1 0 0 0 0 0 2,
  r (-100) 20 0 0 0 0 0 0 6 (-8) 0 0 0 0 0 (-1),
  r (-70) (-50) 0 0 1 (-1) 1 0 0 (-3) 4 0 0 0 0 0,
  r 120 0 0 0 0 0 0 0 3 (-6) 0 0 0 0 0 (-2),
  r 0 120 2 0 2 4 2 0 0 0 0 0 0 0 0 0,
  r (-40) (-80) 0 0 0 0 1 0 0 8 (-15) 0 0 0 0 0,
  r 0 (-120) 2 1 0 0 (-1) 0 0 0 0 0 0 0 0 0,
  r 0 120 1 2 0 (-2) 1 0 0 0 0 0 0 0 0 0,
  r 0 (-129) 0 0 2 (-4) 2 0 0 0 0 0 0 0 0 0,
  r 0 (-130) 0 0 0 0 0 0 0 3 0 0 (-1) 0 0 2,
  r 0 (-130) 0 0 0 0 0 0 3 (-1) 0 0 0 0 0 2,
  r 0 (-130) 1 0 (-4) (-2) (-2) 0 0 0 0 0 0 0 0 0,
  r 0 (-130) 3 1 2 (-2) 2 0 0 0 0 0 0 0 0 0,
  r 110 20 0 0 0 0 0 0 0 2 0 (-2) 0 0 0 1,
  r (-20) (-110) 0 0 0 0 0 0 6 (-10) 0 0 0 0 0 (-2),
  r (-80) 50 0 0 1 (-1) 1 0 3 (-6) 0 0 0 0 0 0,
  r (-70) (-60) 0 0 1 (-1) 1 0 8 (-14) 0 0 0 0 0 0,
  r 0 130 1 (-2) 2 2 2 0 0 0 0 0 0 0 0 0,
  r 0 (-130) 1 (-1) (-2) (-4) (-2) 0 0 0 0 0 0 0 0 0,
  r (-130) 0 1 0 0 (-1) (-1) 0 (-3) 4 0 0 0 0 0 0,
  r 20 120 2 (-1) 0 (-2) 0 0 0 0 0 0 0 0 0 0,
  r (-30) 110 0 0 0 0 1 0 (-3) 5 0 0 0 0 0 0,
  r 140 0 0 0 1 0 2 0 0 0 0 0 0 0 0 0,
  r 0 140 1 0 2 4 1 0 0 0 0 0 0 0 0 0,
  r 0 (-140) 3 0 (-2) (-2) (-1) 0 0 0 0 0 0 0 0 0,
  r 110 (-30) 0 0 1 (-1) 1 0 (-1) 0 0 0 0 0 0 0,
  r 0 (-140) 0 0 2 (-2) 1 0 (-4) 4 0 0 0 0 0 0,
  r 0 140 1 0 (-2) (-6) (-2) 0 0 0 0 0 0 0 0 0,
  r 0 (-140) 1 (-2) (-2) (-2) (-2) 0 0 0 0 0 0 0 0 0,
  r 0 (-140) 0 0 2 (-3) 1 0 0 0 0 0 0 0 0 0,
  r 0 141 0 1 0 2 0 0 0 0 0 0 0 0 0 0,
  r 0 (-141) 2 0 2 0 0 0 0 0 0 0 0 0 0 0,
  r 0 149 2 0 2 (-4) 2 0 0 0 0 0 0 0 0 0,
  r 0 150 0 0 0 0 1 0 1 (-1) 0 0 0 0 0 0,
  r 0 150 1 0 0 (-1) (-2) 0 0 0 0 0 0 0 0 0,
  r 0 150 1 1 (-2) (-4) (-1) 0 0 0 0 0 0 0 0 0,
  r 20 (-130) 0 0 0 0 0 0 0 1 0 (-4) 0 0 0 (-2),
  r (-50) 100 0 0 0 0 0 0 0 1 (-8) 3 0 0 0 (-2),
  r (-50) 100 0 0 2 0 2 0 0 1 0 0 0 0 0 0,
  r (-140) 10 0 0 0 0 0 0 0 4 0 (-1) 0 0 0 2,
  r (-120) (-30) 0 0 0 0 0 0 1 1 0 0 0 0 0 1,
  r 0 (-150) 0 0 0 0 0 0 9 (-11) 0 0 0 0 0 (-2),
  r 130 (-20) 0 0 0 0 1 0 0 0 0 0 1 0 0 0,
  r 0 (-150) 0 1 4 (-2) 2 0 0 0 0 0 0 0 0 0,
  r 150 0 1 0 0 (-1) 1 0 (-3) 4 0 0 0 0 0 0,
  r 0 (-150) 1 2 0 (-2) (-1) 0 0 0 0 0 0 0 0 0,
  r 0 (-150) 1 0 0 1 (-1) 0 0 0 0 0 0 0 0 0,
  r 0 150 2 (-1) 0 0 (-1) 0 0 0 0 0 0 0 0 0,
  r 0 (-150) 0 1 2 (-2) (-1) 0 0 0 0 0 0 0 0 0,
  r 0 (-150) 1 (-1) 0 2 0 0 0 0 0 0 0 0 0 0,
  r 110 (-50) 0 0 1 (-1) 2 0 0 (-1) 0 0 2 0 0 0,
  r 0 (-160) 0 0 4 0 1 0 0 0 0 0 0 0 0 0,
  r 0 (-160) 1 1 0 2 1 0 0 0 0 0 0 0 0 0,
  r 0 160 1 0 0 4 1 0 0 0 0 0 0 0 0 0,
  r 30 (-130) 0 0 0 0 0 0 0 1 (-2) 0 0 0 0 1,
  r (-130) (-30) 0 0 0 0 0 0 4 (-4) 0 0 0 0 0 (-1),
  r 60 100 0 0 0 0 0 0 0 3 (-6) 0 0 0 0 (-2),
  r (-50) (-110) 2 0 2 0 2 0 0 2 0 (-3) 0 0 0 0,
  r 120 (-40) 0 0 0 0 0 0 0 0 0 3 0 0 0 1,
  r 0 (-160) 0 0 2 3 2 0 0 0 0 0 0 0 0 0,
  r 0 (-160) 2 0 4 (-2) 2 0 0 0 0 0 0 0 0 0,
  r 0 160 0 1 (-2) 2 1 0 0 0 0 0 0 0 0 0,
  r (-170) 0 0 0 0 0 1 0 2 (-3) 0 0 0 0 0 0,
  r (-110) 60 0 0 0 0 1 0 0 (-2) 4 0 0 0 0 0,
  r (-60) (-110) 0 0 0 0 0 0 0 4 (-3) 0 0 0 0 2,
  r 60 110 1 0 (-2) 0 (-1) 0 0 (-1) 0 0 0 0 0 0,
  r (-60) (-110) 1 0 2 0 1 0 0 (-2) 0 3 0 0 0 0,
  r 150 20 0 0 1 1 1 0 0 1 0 0 0 0 0 0,
  r (-120) (-50) 0 0 2 (-2) 1 0 0 (-9) 13 0 0 0 0 0,
  r 0 (-171) 0 0 2 2 0 0 0 0 0 0 0 0 0 0,
  r 0 180 2 0 (-2) (-6) (-2) 0 0 0 0 0 0 0 0 0,
  r 20 (-160) 0 0 0 0 0 0 2 (-3) 0 0 0 0 0 (-1)]

private def y0Series_3 : List Row := [
  r (-110) 70 0 0 0 0 0 0 0 2 (-4) 0 0 0 0 (-1),
  r 0 (-180) 2 0 (-4) (-2) (-2) 0 0 0 0 0 0 0 0 0,
  r 0 (-180) 2 (-1) 0 0 1 0 0 0 0 0 0 0 0 0,
  r 0 190 1 (-1) 0 2 1 0 0 0 0 0 0 0 0 0,
  r 0 190 0 0 0 4 (-1) 0 0 0 0 0 0 0 0 0,
  r (-30) 160 0 0 0 0 0 0 0 4 0 (-3) 0 0 0 2,
  r 0 (-190) 2 0 2 1 2 0 0 0 0 0 0 0 0 0,
  r (-100) 90 0 0 1 (-1) 1 0 0 (-1) 0 0 0 0 2 0,
  r (-140) (-50) 0 0 1 (-1) 1 0 0 (-1) 0 (-4) 10 0 0 0,
  r (-150) (-40) 0 0 0 0 0 0 0 2 0 0 0 0 0 1,
  r 150 40 0 0 1 (-1) 1 0 (-4) 5 0 0 0 0 0 0,
  r 0 190 2 (-1) 0 (-2) 1 0 0 0 0 0 0 0 0 0,
  r 0 (-190) 3 0 (-2) (-2) (-2) 0 0 0 0 0 0 0 0 0,
  r 0 190 0 0 4 (-4) 2 0 0 0 0 0 0 0 0 0,
  r 0 (-190) 0 0 0 4 0 0 0 0 0 0 0 0 0 0,
  r 0 (-191) 1 0 (-2) (-2) 0 0 0 0 0 0 0 0 0 0,
  r 160 (-40) 0 0 0 0 0 0 1 (-3) 0 0 0 0 0 (-1),
  r 110 (-90) 0 0 0 0 0 0 0 0 0 2 (-5) 0 0 (-2),
  r 200 0 0 0 0 0 0 0 6 (-9) 0 0 0 0 0 (-2),
  r 0 (-200) 1 2 2 (-2) 2 0 0 0 0 0 0 0 0 0,
  r 0 200 2 (-2) 0 (-2) (-1) 0 0 0 0 0 0 0 0 0,
  r 0 200 1 (-1) 0 2 (-1) 0 0 0 0 0 0 0 0 0,
  r 0 200 1 0 (-2) 2 1 0 0 0 0 0 0 0 0 0,
  r 0 (-200) 1 0 2 (-2) (-1) 0 0 0 0 0 0 0 0 0,
  r 0 210 1 0 2 (-1) 1 0 0 0 0 0 0 0 0 0,
  r 0 (-210) 2 1 2 (-2) 1 0 0 0 0 0 0 0 0 0,
  r 0 (-210) 1 0 4 (-2) 1 0 0 0 0 0 0 0 0 0,
  r 0 210 1 (-1) 2 (-2) 1 0 0 0 0 0 0 0 0 0,
  r 0 210 1 0 (-2) 1 (-2) 0 0 0 0 0 0 0 0 0,
  r (-130) (-80) 0 0 0 0 0 0 0 4 (-4) 0 0 0 0 2,
  r (-80) (-130) 0 0 0 0 0 0 0 5 (-4) 0 0 0 0 2,
  r (-170) 40 0 0 0 0 0 0 1 (-1) 0 0 0 0 0 1,
  r 0 220 4 0 2 0 1 0 0 0 0 0 0 0 0 0,
  r 0 220 0 1 2 1 1 0 0 0 0 0 0 0 0 0,
  r (-180) (-40) 0 0 0 0 0 0 3 (-3) 0 0 0 0 0 (-1),
  r 0 220 0 0 0 0 0 0 0 2 (-4) 0 0 0 0 (-2),
  r 0 220 1 1 2 1 2 0 0 0 0 0 0 0 0 0,
  r 0 (-220) 2 (-1) 2 (-2) 2 0 0 0 0 0 0 0 0 0,
  r 0 220 1 (-2) 2 0 2 0 0 0 0 0 0 0 0 0,
  r (-20) (-200) 0 0 0 1 0 0 0 0 0 0 0 0 0 0,
  r (-10) (-220) 0 0 0 0 0 0 8 (-10) 0 0 0 0 0 (-2),
  r (-140) 90 0 0 0 0 0 0 0 0 4 0 0 0 0 2,
  r 0 (-230) 3 1 2 0 2 0 0 0 0 0 0 0 0 0,
  r 0 230 1 1 2 (-4) 1 0 0 0 0 0 0 0 0 0,
  r (-10) (-230) 2 0 0 (-4) 0 0 0 0 0 0 0 0 0 0,
  r (-190) 50 0 0 0 0 0 0 5 (-7) 0 0 0 0 0 (-1),
  r 0 240 1 0 2 (-3) 1 0 0 0 0 0 0 0 0 0,
  r 0 (-240) 1 1 (-2) 2 (-1) 0 0 0 0 0 0 0 0 0,
  r 0 240 2 0 0 2 (-1) 0 0 0 0 0 0 0 0 0,
  r 0 (-240) 2 0 0 2 0 0 0 0 0 0 0 0 0 0,
  r 0 (-250) 2 0 0 0 (-2) 0 0 0 0 0 0 0 0 0,
  r 190 (-60) 0 0 0 0 0 0 0 6 (-16) 4 5 0 0 (-2),
  r 80 170 0 0 0 0 0 0 0 0 0 0 1 0 0 (-1),
  r 0 250 0 1 0 1 (-1) 0 0 0 0 0 0 0 0 0,
  r 210 50 0 0 1 (-1) 1 0 (-3) 4 0 0 0 0 0 0,
  r 0 260 3 (-1) 2 0 2 0 0 0 0 0 0 0 0 0,
  r 0 (-260) 0 1 0 2 (-1) 0 0 0 0 0 0 0 0 0,
  r 0 (-260) 0 1 0 1 1 0 0 0 0 0 0 0 0 0,
  r 270 0 1 0 (-1) 0 (-3) 0 0 0 0 0 0 0 0 0,
  r 0 (-270) 0 0 2 (-2) 1 0 0 (-2) 0 2 0 0 0 0,
  r (-250) (-30) 0 0 0 0 0 0 0 1 (-2) 0 0 0 0 (-1),
  r (-250) 30 0 0 1 (-1) 1 0 0 (-1) 0 1 0 0 0 0,
  r 0 (-280) 2 1 (-2) (-2) (-2) 0 0 0 0 0 0 0 0 0,
  r 0 289 0 1 (-2) 2 0 0 0 0 0 0 0 0 0 0,
  r 0 (-290) 1 0 2 1 1 0 0 0 0 0 0 0 0 0,
  r 40 (-250) 0 0 0 0 0 0 0 0 0 0 1 0 0 1,
  r (-250) 40 0 0 1 (-1) 1 0 0 (-2) 2 0 0 0 0 0,
  r 0 (-290) 2 0 0 (-2) 1 0 0 (-2) 0 2 0 0 0 0,
  r (-290) (-10) 0 0 0 0 0 0 4 (-7) 0 0 0 0 0 (-2),
  r (-160) 140 1 0 0 (-1) 1 0 0 (-1) 0 2 0 0 0 0,
  r 0 300 2 0 2 (-1) 2 0 0 0 0 0 0 0 0 0,
  r 0 (-308) 1 0 2 (-4) 2 0 0 0 0 0 0 0 0 0,
  r (-70) (-240) 0 0 0 0 0 0 3 (-3) 0 0 0 0 0 2,
  r 8 305 0 0 2 (-2) 3 0 0 0 0 0 0 0 0 0,
  r 290 (-30) 0 0 0 0 0 0 0 0 0 1 0 0 0 1,
  r 0 320 0 0 0 0 0 0 0 0 2 0 0 0 0 2,
  r 0 (-320) 0 0 0 0 0 0 7 (-9) 0 0 0 0 0 (-2),
  r 0 (-320) 0 2 2 0 2 0 0 0 0 0 0 0 0 0,
  r 0 320 1 (-1) 2 (-2) 2 0 0 0 0 0 0 0 0 0,
  r 0 323 0 2 0 0 (-1) 0 0 0 0 0 0 0 0 0,
  r 0 330 1 1 (-2) 0 (-1) 0 0 0 0 0 0 0 0 0,
  r 0 (-330) 2 1 2 0 1 0 0 0 0 0 0 0 0 0,
  r 100 (-230) 0 0 0 0 0 0 0 0 0 1 0 0 0 2,
  r 260 (-70) 0 0 0 0 0 0 3 (-5) 0 0 0 0 0 (-1),
  r 50 280 2 0 0 (-2) (-1) 0 0 (-2) 0 3 0 0 0 0,
  r 0 336 0 0 2 0 3 0 0 0 0 0 0 0 0 0,
  r 0 340 2 0 (-4) 0 (-2) 0 0 0 0 0 0 0 0 0,
  r 0 (-340) 1 (-1) 0 (-2) 1 0 0 0 0 0 0 0 0 0,
  r (-290) (-60) 0 0 0 0 0 0 2 (-2) 0 0 0 0 0 (-1),
  r 0 (-350) 0 0 0 0 0 0 0 2 0 0 0 0 0 0,
  r (-280) 70 0 0 0 0 0 0 0 0 0 1 0 0 0 (-1),
  r 70 280 0 0 0 0 0 0 3 (-7) 0 0 0 0 0 (-2),
  r 0 (-360) 1 1 (-2) 1 (-1) 0 0 0 0 0 0 0 0 0,
  r (-210) 150 0 0 0 0 0 0 0 1 0 2 0 0 0 2,
  r 0 (-360) 1 0 (-2) (-1) (-2) 0 0 0 0 0 0 0 0 0,
  r (-20) 351 1 1 0 0 0 0 0 0 0 0 0 0 0 0,
  r 0 380 0 0 0 0 0 0 0 2 0 0 0 0 0 2,
  r 0 390 2 0 0 0 2 0 0 0 0 0 0 0 0 0,
  r 0 390 2 (-1) 2 0 1 0 0 0 0 0 0 0 0 0,
  r 310 (-80) 0 0 0 0 0 0 2 (-4) 0 0 0 0 0 (-1),
  r 0 (-390) 1 0 (-2) (-3) (-2) 0 0 0 0 0 0 0 0 0,
  r 0 390 0 1 (-2) (-4) (-2) 0 0 0 0 0 0 0 0 0,
  r 0 390 2 (-1) 2 2 2 0 0 0 0 0 0 0 0 0,
  r 190 200 0 0 0 0 1 0 0 1 (-2) 0 0 0 0 0,
  r 0 (-391) 1 0 0 (-4) 0 0 0 0 0 0 0 0 0 0,
  r 0 (-400) 0 1 (-2) 1 (-2) 0 0 0 0 0 0 0 0 0,
  r 0 400 1 0 (-4) 2 (-2) 0 0 0 0 0 0 0 0 0,
  r 0 410 3 0 (-2) 0 (-1) 0 0 0 0 0 0 0 0 0,
  r (-60) 350 0 0 1 (-1) 1 0 0 (-1) 0 0 1 0 0 0,
  r 20 400 0 2 (-2) 0 (-2) 0 0 0 0 0 0 0 0 0,
  r 20 403 1 0 (-2) 0 0 0 0 0 0 0 0 0 0 0,
  r 0 (-430) 0 1 2 2 1 0 0 0 0 0 0 0 0 0,
  r 0 430 2 0 (-2) 2 (-1) 0 0 0 0 0 0 0 0 0,
  r 0 (-430) 3 0 0 0 1 0 0 0 0 0 0 0 0 0,
  r 0 439 2 0 0 (-2) 2 0 0 0 0 0 0 0 0 0,
  r 0 (-440) 1 (-1) (-2) (-2) (-1) 0 0 0 0 0 0 0 0 0,
  r 0 440 1 2 (-2) (-2) (-2) 0 0 0 0 0 0 0 0 0,
  r 30 (-411) 1 (-1) 0 0 0 0 0 0 0 0 0 0 0 0,
  r 0 (-450) 2 (-1) (-2) 0 (-1) 0 0 0 0 0 0 0 0 0,
  r (-150) (-300) 1 0 0 0 1 0 (-18) 16 0 0 0 0 0 0,
  r 0 (-450) 2 1 0 (-2) 1 0 0 0 0 0 0 0 0 0,
  r 0 471 1 0 2 0 (-1) 0 0 0 0 0 0 0 0 0,
  r 0 (-472) 0 2 2 (-2) 1 0 0 0 0 0 0 0 0 0,
  r (-370) (-110) 0 0 0 0 1 0 0 0 0 1 0 0 0 0,
  r 0 480 2 1 (-2) (-4) (-2) 0 0 0 0 0 0 0 0 0,
  r 90 390 0 0 0 0 1 0 0 0 0 2 (-5) 0 0 0,
  r 0 (-490) 0 0 0 0 0 0 1 (-3) 0 0 0 0 0 (-2),
  r 490 0 0 0 0 0 0 0 2 (-5) 0 0 0 0 0 (-2),
  r 0 (-490) 4 0 2 (-2) 2 0 0 0 0 0 0 0 0 0,
  r 0 (-500) 1 (-1) (-2) 0 (-1) 0 0 0 0 0 0 0 0 0,
  r 0 500 1 (-1) 2 2 1 0 0 0 0 0 0 0 0 0,
  r 0 (-500) 3 0 0 0 0 0 0 0 0 0 0 0 0 0,
  r (-500) 0 0 0 0 0 0 0 3 (-2) 0 0 0 0 0 2,
  r 90 (-410) 0 0 0 0 1 0 0 0 0 (-2) 5 0 0 0,
  r 0 507 0 2 0 0 1 0 0 0 0 0 0 0 0 0,
  r 0 (-510) 0 0 0 0 0 0 6 (-8) 0 0 0 0 0 (-2),
  r 300 210 0 0 0 0 1 0 (-8) 13 0 0 0 0 0 0,
  r 0 (-519) 0 0 0 2 (-2) 0 0 0 0 0 0 0 0 0,
  r 0 (-520) 0 0 0 0 0 0 0 1 0 (-3) 0 0 0 (-2),
  r 0 (-530) 0 0 1 (-1) 1 0 0 (-5) 8 (-3) 0 0 0 0,
  r 0 530 1 (-1) 0 (-2) (-2) 0 0 0 0 0 0 0 0 0,
  r 180 360 1 0 0 0 (-1) 0 (-18) 16 0 0 0 0 0 0,
  r 0 (-540) 0 0 0 0 0 0 0 8 (-16) 4 5 0 0 2,
  r 0 (-540) 2 0 2 (-4) 1 0 0 0 0 0 0 0 0 0,
  r 0 550 0 2 (-2) (-2) (-2) 0 0 0 0 0 0 0 0 0,
  r (-40) (-510) 1 1 0 (-2) 0 0 0 0 0 0 0 0 0 0,
  r (-90) (-470) 0 0 0 0 0 0 5 (-8) 0 0 0 0 0 (-1),
  r 20 (-540) 2 1 (-2) 0 (-1) 0 0 0 0 0 0 0 0 0,
  r 0 560 1 0 0 (-4) 1 0 0 0 0 0 0 0 0 0,
  r 0 560 2 0 0 (-4) 1 0 0 0 0 0 0 0 0 0,
  r 0 570 2 0 0 2 1 0 0 0 0 0 0 0 0 0,
  r 0 570 0 0 0 0 0 0 0 0 0 0 2 0 0 2,
  r 10 560 3 0 2 2 2 0 0 0 0 0 0 0 0 0,
  r 0 570 1 (-1) (-2) 2 (-1) 0 0 0 0 0 0 0 0 0,
  r (-90) (-480) 2 0 0 (-2) 1 0 0 (-2) 0 3 0 0 0 0,
  r 0 590 1 (-1) 0 (-2) (-1) 0 0 0 0 0 0 0 0 0,
  r 0 600 0 0 2 4 1 0 0 0 0 0 0 0 0 0,
  r 350 (-250) 0 0 0 0 1 0 8 (-13) 0 0 0 0 0 0,
  r 0 610 0 0 2 (-1) 1 0 0 0 0 0 0 0 0 0,
  r 0 610 0 0 1 (-1) 1 0 0 3 (-8) 3 0 0 0 0,
  r 0 (-610) 1 1 2 2 2 0 0 0 0 0 0 0 0 0,
  r (-10) (-620) 0 0 0 0 0 0 0 4 (-2) 0 0 0 0 2,
  r 0 (-630) 0 0 2 (-2) 1 0 (-3) 3 0 0 0 0 0 0,
  r 90 550 0 0 0 0 0 0 0 0 0 3 0 0 0 2,
  r 0 (-640) 2 0 0 (-4) (-1) 0 0 0 0 0 0 0 0 0,
  r 110 (-539) 1 0 0 (-1) 1 0 0 0 0 0 0 0 0 0,
  r (-310) (-350) 0 0 0 0 0 0 0 3 (-2) 0 0 0 0 2,
  r 0 660 3 0 0 0 (-1) 0 0 0 0 0 0 0 0 0,
  r (-390) (-290) 0 0 0 0 0 0 0 3 0 (-2) 0 0 0 2,
  r (-310) 370 0 0 0 0 0 0 0 1 2 0 0 0 0 2,
  r 0 690 1 1 (-2) 0 (-2) 0 0 0 0 0 0 0 0 0,
  r 420 (-270) 0 0 0 0 0 0 8 (-15) 0 0 0 0 0 (-2),
  r 0 690 2 1 0 (-2) (-1) 0 0 0 0 0 0 0 0 0,
  r (-570) (-130) 0 0 0 0 0 0 1 (-1) 0 0 0 0 0 (-1),
  r (-560) 140 0 0 0 0 0 0 4 (-6) 0 0 0 0 0 (-1),
  r 10 690 1 0 2 4 2 0 0 0 0 0 0 0 0 0,
  r 0 (-720) 0 0 4 (-2) 1 0 0 0 0 0 0 0 0 0,
  r 0 (-749) 2 0 0 (-2) (-2) 0 0 0 0 0 0 0 0 0,
  r 0 (-750) 3 0 2 (-2) 1 0 0 0 0 0 0 0 0 0,
  r 0 750 1 1 (-2) (-4) (-2) 0 0 0 0 0 0 0 0 0,
  r 490 270 0 0 0 0 0 0 8 (-11) 0 0 0 0 0 (-2),
  r (-50) (-720) 0 0 0 0 0 0 0 2 0 1 0 0 0 2,
  r (-750) (-20) 0 0 0 0 0 0 2 (-1) 0 0 0 0 0 2,
  r 0 780 0 0 0 4 1 0 0 0 0 0 0 0 0 0,
  r 0 (-790) 0 0 4 0 2 0 0 0 0 0 0 0 0 0,
  r (-130) 670 0 0 0 0 0 0 0 2 0 (-1) 0 0 0 2,
  r 0 809 0 1 0 (-2) (-1) 0 0 0 0 0 0 0 0 0,
  r (-10) 800 0 0 0 0 0 0 0 4 0 (-2) 0 0 0 2,
  r 420 (-400) 0 0 0 0 0 0 0 8 (-16) 4 5 0 0 (-2),
  r 270 550 1 0 (-2) 0 (-2) 0 0 4 (-8) 3 0 0 0 0,
  r 0 830 0 0 2 (-3) 2 0 0 0 0 0 0 0 0 0,
  r (-260) (-570) 1 0 2 0 2 0 0 1 0 0 0 0 0 0,
  r (-20) (-811) 0 1 0 (-2) 0 0 0 0 0 0 0 0 0 0,
  r 0 840 0 0 2 (-4) 1 0 0 0 0 0 0 0 0 0,
  r (-590) 260 0 0 1 (-1) 1 0 0 (-1) 0 0 2 0 0 0,
  r 0 (-870) 0 0 0 0 0 0 5 (-7) 0 0 0 0 0 (-2),
  r 610 (-270) 0 0 0 0 0 0 0 0 0 0 2 0 0 1,
  r 140 (-750) 0 0 1 (-1) 1 0 (-5) 7 0 0 0 0 0 0,
  r (-770) 140 0 0 1 (-1) 1 0 0 (-1) 0 2 0 0 0 0,
  r (-760) 170 0 0 0 0 0 0 8 (-13) 0 0 0 0 0 (-2)]

private def y0Series_4 : List Row := [
  r 10 940 2 0 2 2 1 0 0 0 0 0 0 0 0 0,
  r 0 960 1 0 0 (-4) (-1) 0 0 0 0 0 0 0 0 0,
  r 0 (-1000) 1 0 (-4) 0 (-1) 0 0 0 0 0 0 0 0 0,
  r 0 (-1020) 0 1 0 2 1 0 0 0 0 0 0 0 0 0,
  r 0 1040 0 1 2 1 2 0 0 0 0 0 0 0 0 0,
  r 0 (-1040) 1 0 4 (-2) 2 0 0 0 0 0 0 0 0 0,
  r 0 1050 2 0 (-2) (-4) (-1) 0 0 0 0 0 0 0 0 0,
  r (-20) 1047 2 0 (-2) 0 0 0 0 0 0 0 0 0 0 0,
  r 0 (-1080) 2 1 2 (-2) 2 0 0 0 0 0 0 0 0 0,
  r 10 (-1077) 1 0 2 0 0 0 0 0 0 0 0 0 0 0,
  r 10 1090 4 0 2 0 2 0 0 0 0 0 0 0 0 0,
  r 0 (-1120) 1 1 0 0 (-1) 0 0 0 0 0 0 0 0 0,
  r 0 1140 0 0 0 0 0 0 0 1 0 1 0 0 0 2,
  r 1130 50 0 0 0 0 0 0 5 (-8) 0 0 0 0 0 (-2),
  r 0 (-1200) 2 0 (-2) (-2) (-1) 0 0 0 0 0 0 0 0 0,
  r 1170 80 0 0 0 0 0 0 0 0 0 2 (-5) 0 0 1,
  r 0 (-1280) 1 1 2 (-2) 1 0 0 0 0 0 0 0 0 0,
  r 0 1280 1 0 (-2) 1 (-1) 0 0 0 0 0 0 0 0 0,
  r 1030 270 0 0 1 (-1) 1 0 0 (-1) 0 (-1) 0 0 0 0,
  r (-10) 1310 1 0 (-2) (-4) (-1) 0 0 0 0 0 0 0 0 0,
  r 0 (-1338) 1 0 0 (-2) 2 0 0 0 0 0 0 0 0 0,
  r (-1380) 0 0 0 1 0 1 0 0 0 0 0 0 0 0 0,
  r 450 (-930) 0 0 1 (-1) 1 0 0 (-1) 0 0 (-1) 0 0 0,
  r 0 (-1381) 1 0 (-2) 0 1 0 0 0 0 0 0 0 0 0,
  r 0 (-1440) 0 0 2 1 1 0 0 0 0 0 0 0 0 0,
  r (-10) (-1430) 1 0 2 1 2 0 0 0 0 0 0 0 0 0,
  r 0 1440 1 0 2 (-1) 2 0 0 0 0 0 0 0 0 0,
  r 0 1470 0 0 0 0 0 0 1 1 0 0 0 0 0 2,
  r 0 (-1510) 2 0 0 (-2) (-1) 0 0 (-2) 0 2 0 0 0 0,
  r 0 (-1531) 1 0 (-2) 2 (-2) 0 0 0 0 0 0 0 0 0,
  r 0 (-1600) 0 0 0 0 0 0 2 0 0 0 0 0 0 2,
  r 0 1621 1 (-1) 0 0 (-1) 0 0 0 0 0 0 0 0 0,
  r 0 1708 1 0 0 (-2) (-2) 0 0 0 0 0 0 0 0 0,
  r 1450 (-270) 0 0 0 0 0 0 0 0 0 2 0 0 0 1,
  r 0 (-1741) 0 0 0 1 (-1) 0 0 0 0 0 0 0 0 0,
  r (-130) (-1626) 0 0 2 (-2) 0 0 0 0 0 0 0 0 0 0,
  r (-1760) 0 1 0 (-1) 0 (-2) 0 0 0 0 0 0 0 0 0,
  r (-10) (-1760) 2 1 2 0 2 0 0 0 0 0 0 0 0 0,
  r 100 1681 0 2 0 0 0 0 0 0 0 0 0 0 0 0,
  r 0 1810 0 3 2 (-2) 2 0 0 0 0 0 0 0 0 0,
  r (-10) 1840 0 1 0 (-2) 1 0 0 0 0 0 0 0 0 0,
  r (-10) (-1850) 1 1 2 0 1 0 0 0 0 0 0 0 0 0,
  r 430 (-1460) 0 0 1 (-1) 1 0 0 0 (-2) 0 0 0 0 0,
  r 0 1891 1 1 0 0 1 0 0 0 0 0 0 0 0 0,
  r 0 1980 0 0 0 0 0 0 2 (-4) 0 0 0 0 0 (-2),
  r 0 (-2000) 1 (-1) (-2) 0 (-2) 0 0 0 0 0 0 0 0 0,
  r 1560 440 0 0 0 0 1 0 0 4 (-8) 3 0 0 0 0,
  r 0 2011 0 0 0 2 2 0 0 0 0 0 0 0 0 0,
  r 20 (-1994) 1 0 0 2 0 0 0 0 0 0 0 0 0 0,
  r 1590 (-450) 0 0 0 0 1 0 0 (-4) 8 (-3) 0 0 0 0,
  r 0 2051 0 0 0 1 1 0 0 0 0 0 0 0 0 0,
  r 70 (-2010) 0 0 0 0 0 0 0 3 0 (-1) 0 0 0 2,
  r 10 2070 2 (-1) 2 0 2 0 0 0 0 0 0 0 0 0,
  r 0 (-2130) 0 0 0 0 0 0 4 (-6) 0 0 0 0 0 (-2),
  r 10 2160 1 (-1) 2 0 1 0 0 0 0 0 0 0 0 0,
  r (-10) 2250 0 1 (-2) (-2) (-1) 0 0 0 0 0 0 0 0 0,
  r (-10) (-2280) 0 1 2 2 2 0 0 0 0 0 0 0 0 0,
  r (-1800) (-530) 0 0 0 0 0 0 0 6 (-8) 3 0 0 0 2,
  r (-10) 2400 1 1 (-2) (-2) (-1) 0 0 0 0 0 0 0 0 0,
  r (-2330) 90 0 0 2 (-2) 1 0 (-5) 6 0 0 0 0 0 0,
  r 10 (-2440) 1 (-1) (-2) (-2) (-2) 0 0 0 0 0 0 0 0 0,
  r (-10) 2440 1 0 2 (-4) 1 0 0 0 0 0 0 0 0 0,
  r 20 2500 3 0 2 0 1 0 0 0 0 0 0 0 0 0,
  r 0 (-2531) 0 1 0 0 (-2) 0 0 0 0 0 0 0 0 0,
  r 20 2520 1 (-1) 2 2 2 0 0 0 0 0 0 0 0 0,
  r 0 2580 1 (-1) 0 (-1) (-2) 0 0 0 0 0 0 0 0 0,
  r 1990 590 0 0 0 0 0 0 0 2 (-8) 3 0 0 0 (-2),
  r (-2570) (-170) 0 0 1 (-1) 1 0 0 (-1) 0 2 (-5) 0 0 0,
  r 10 2750 1 0 0 2 (-1) 0 0 0 0 0 0 0 0 0,
  r 0 (-2791) 1 (-1) 0 0 1 0 0 0 0 0 0 0 0 0,
  r 20 2940 0 0 2 4 2 0 0 0 0 0 0 0 0 0,
  r 0 3040 0 0 2 (-1) 2 0 0 0 0 0 0 0 0 0,
  r (-10) 3161 1 1 0 (-2) 1 0 0 0 0 0 0 0 0 0,
  r 20 (-3255) 0 1 0 0 2 0 0 0 0 0 0 0 0 0,
  r (-10) 3459 0 1 (-2) 0 (-1) 0 0 0 0 0 0 0 0 0,
  r 10 3695 0 0 2 0 (-1) 0 0 0 0 0 0 0 0 0,
  r (-10) (-3892) 2 0 (-2) 0 1 0 0 0 0 0 0 0 0 0,
  r 0 (-3911) 1 1 0 (-2) (-1) 0 0 0 0 0 0 0 0 0,
  r (-10) (-3950) 0 0 4 (-2) 2 0 0 0 0 0 0 0 0 0,
  r (-10) (-3990) 3 0 2 (-2) 2 0 0 0 0 0 0 0 0 0,
  r 1330 2690 0 0 0 0 0 0 8 (-13) 0 0 0 0 0 (-1),
  r (-10) (-4219) 0 1 2 0 1 0 0 0 0 0 0 0 0 0,
  r (-10) (-4404) 0 0 2 (-2) (-1) 0 0 0 0 0 0 0 0 0,
  r 40 4650 2 0 2 2 2 0 0 0 0 0 0 0 0 0,
  r (-2320) 2460 0 0 0 0 1 0 0 (-1) 2 0 0 0 0 0,
  r 10 (-4900) 1 0 (-4) 0 (-2) 0 0 0 0 0 0 0 0 0,
  r 10 4959 1 0 0 2 1 0 0 0 0 0 0 0 0 0,
  r 250 4770 2 0 0 (-2) 0 0 0 0 0 0 0 0 0 0,
  r 0 5050 0 0 0 0 0 0 0 0 0 2 0 0 0 2,
  r 100 (-4951) 1 0 0 (-1) (-1) 0 0 0 0 0 0 0 0 0,
  r (-20) 5180 2 0 (-2) (-4) (-2) 0 0 0 0 0 0 0 0 0,
  r (-10) (-5269) 2 0 2 (-2) 1 0 0 0 0 0 0 0 0 0,
  r 0 (-5560) 1 1 2 (-2) 2 0 0 0 0 0 0 0 0 0,
  r 110 (-5555) 0 0 2 0 0 0 0 0 0 0 0 0 0 0,
  r 20 (-5920) 2 0 (-2) (-2) (-2) 0 0 0 0 0 0 0 0 0,
  r (-20) (-6092) 1 0 0 0 (-2) 0 0 0 0 0 0 0 0 0,
  r 130 (-6090) 2 0 0 0 0 0 0 0 0 0 0 0 0 0,
  r (-40) 6470 1 0 (-2) (-4) (-2) 0 0 0 0 0 0 0 0 0,
  r 40 6629 1 0 2 2 1 0 0 0 0 0 0 0 0 0,
  r 0 6725 0 2 (-2) 2 (-1) 0 0 0 0 0 0 0 0 0,
  r 1390 (-5530) 1 0 0 (-1) 0 0 0 0 0 0 0 0 0 0,
  r 0 (-7001) 1 (-1) 0 (-1) (-1) 0 0 0 0 0 0 0 0 0,
  r (-20) (-7100) 0 0 2 1 2 0 0 0 0 0 0 0 0 0,
  r 0 8532 1 0 0 0 2 0 0 0 0 0 0 0 0 0,
  r 8910 0 1 0 (-1) 0 (-1) 0 0 0 0 0 0 0 0 0,
  r 0 8950 0 0 0 0 0 0 3 (-5) 0 0 0 0 0 (-2),
  r 3190 (-6410) 0 0 1 (-1) 1 0 (-8) 12 0 0 0 0 0 0,
  r (-30) (-10620) 1 1 2 0 2 0 0 0 0 0 0 0 0 0,
  r 20 10731 1 0 (-2) 2 (-1) 0 0 0 0 0 0 0 0 0,
  r (-20) (-11294) 2 0 0 0 1 0 0 0 0 0 0 0 0 0,
  r (-50) 11290 0 1 (-2) (-2) (-2) 0 0 0 0 0 0 0 0 0,
  r (-30) 12070 1 1 (-2) (-2) (-2) 0 0 0 0 0 0 0 0 0,
  r 40 12320 1 (-1) 2 0 2 0 0 0 0 0 0 0 0 0,
  r 70 12320 3 0 2 0 2 0 0 0 0 0 0 0 0 0,
  r 290 (-12228) 0 0 0 2 0 0 0 0 0 0 0 0 0 0,
  r 40 12664 2 0 0 0 (-1) 0 0 0 0 0 0 0 0 0,
  r 10 13104 2 0 (-2) 0 (-2) 0 0 0 0 0 0 0 0 0,
  r (-820) (-12348) 1 0 0 (-2) 0 0 0 0 0 0 0 0 0 0,
  r 16790 0 0 1 (-1) 1 (-1) 0 0 0 0 0 0 0 0 0,
  r 10 (-19079) 0 1 2 (-2) 1 0 0 0 0 0 0 0 0 0,
  r 12860 (-7710) 0 0 0 0 0 0 0 0 0 2 (-5) 0 0 (-1),
  r 10 (-22067) 2 0 0 (-2) 1 0 0 0 0 0 0 0 0 0,
  r 120 26945 2 0 2 0 1 0 0 0 0 0 0 0 0 0,
  r 30 27222 0 1 (-2) 2 (-1) 0 0 0 0 0 0 0 0 0,
  r 90 27205 0 0 0 2 (-1) 0 0 0 0 0 0 0 0 0,
  r (-40) (-27681) 2 0 2 (-2) 2 0 0 0 0 0 0 0 0 0,
  r (-10) (-30446) 1 0 2 (-2) 1 0 0 0 0 0 0 0 0 0,
  r 50 30417 2 0 0 (-2) (-1) 0 0 0 0 0 0 0 0 0,
  r (-40) 30703 0 1 (-2) 0 (-2) 0 0 0 0 0 0 0 0 0,
  r (-50) (-32503) 0 1 2 0 2 0 0 0 0 0 0 0 0 0,
  r 40 32711 0 0 0 2 1 0 0 0 0 0 0 0 0 0,
  r 190 32660 1 0 2 2 2 0 0 0 0 0 0 0 0 0,
  r 140 33524 0 0 2 2 1 0 0 0 0 0 0 0 0 0,
  r 27350 16470 0 0 1 (-1) 1 0 0 (-1) 0 (-2) 5 0 0 0,
  r (-150) 52211 1 0 (-2) (-2) (-1) 0 0 0 0 0 0 0 0 0,
  r (-262) 64375 0 1 0 0 (-1) 0 0 0 0 0 0 0 0 0,
  r (-50) 68499 0 2 2 (-2) 2 0 0 0 0 0 0 0 0 0,
  r (-140) 69554 1 0 0 (-2) 1 0 0 0 0 0 0 0 0 0,
  r 3580 (-67499) 1 0 0 0 0 0 0 0 0 0 0 0 0 0,
  r 10 (-80034) 1 0 0 (-2) (-1) 0 0 0 0 0 0 0 0 0,
  r (-448) 85285 0 1 0 0 1 0 0 0 0 0 0 0 0 0,
  r 30 (-107560) 1 0 (-2) 0 (-1) 0 0 0 0 0 0 0 0 0,
  r (-30) (-123389) 1 0 2 (-2) 2 0 0 0 0 0 0 0 0 0,
  r 590 132381 2 0 2 0 2 0 0 0 0 0 0 0 0 0,
  r 0 (-138700) 0 2 (-2) 2 (-2) 0 0 0 0 0 0 0 0 0,
  r 680 164501 0 0 2 2 2 0 0 0 0 0 0 0 0 0,
  r (-200) (-242359) 2 0 (-2) 0 (-1) 0 0 0 0 0 0 0 0 0,
  r (-660) 255451 1 0 (-2) (-2) (-2) 0 0 0 0 0 0 0 0 0,
  r 780 263613 1 0 2 0 1 0 0 0 0 0 0 0 0 0,
  r 750 314398 1 0 0 0 (-1) 0 0 0 0 0 0 0 0 0,
  r (-90) (-332389) 1 0 0 0 1 0 0 0 0 0 0 0 0 0,
  r 40 (-533113) 1 0 (-2) 0 (-2) 0 0 0 0 0 0 0 0 0,
  r 392 (-691822) 0 0 2 (-2) 1 0 0 0 0 0 0 0 0 0,
  r (-19240) 738702 0 1 0 0 0 0 0 0 0 0 0 0 0 0,
  r (-1320) (-959272) 0 1 (-2) 2 (-2) 0 0 0 0 0 0 0 0 0,
  r 3670 1290266 1 0 2 0 2 0 0 0 0 0 0 0 0 0,
  r 3180 2006950 0 0 2 0 1 0 0 0 0 0 0 0 0 0,
  r (-1740) 2243842 0 1 2 (-2) 2 0 0 0 0 0 0 0 0 0,
  r (-2905) (-8961824) 0 0 0 0 2 0 0 0 0 0 0 0 0 0,
  r 13741 9784669 0 0 2 0 2 0 0 0 0 0 0 0 0 0,
  r (-45866) 57303342 0 0 2 (-2) 2 0 0 0 0 0 0 0 0 0,
  r 153818 920523626 0 0 0 0 1 0 0 0 0 0 0 0 0 0]

/-- `Y0Series` (ycip06a.cpp:45-1008). -/
def y0Series : List Row := y0Series_0 ++ y0Series_1 ++ y0Series_2 ++ y0Series_3 ++ y0Series_4

private def y1Series_0 : List Row := [
  r 10 0 0 0 0 0 0 0 1 (-3) 0 0 0 0 0 (-2),
  r (-10) 0 1 (-1) 0 (-2) (-1) 0 0 0 0 0 0 0 0 0,
  r 10 0 2 0 0 2 1 0 0 0 0 0 0 0 0 0,
  r (-10) 0 4 0 2 (-2) 2 0 0 0 0 0 0 0 0 0,
  r 0 10 0 0 0 0 0 0 2 (-5) 0 0 0 0 0 (-2),
  r 0 10 0 0 0 0 0 0 3 (-2) 0 0 0 0 0 2,
  r 10 0 0 0 1 (-1) 1 0 0 3 (-8) 3 0 0 0 0,
  r 10 0 2 1 0 (-4) 0 0 0 0 0 0 0 0 0 0,
  r 10 0 0 0 0 0 0 0 6 (-8) 0 0 0 0 0 (-2),
  r (-10) 0 0 0 2 (-2) 1 0 (-3) 3 0 0 0 0 0 0,
  r 10 0 0 0 0 0 0 0 0 1 0 (-3) 0 0 0 (-2),
  r (-11) 0 3 0 0 0 (-1) 0 0 0 0 0 0 0 0 0,
  r 11 0 0 0 0 2 (-2) 0 0 0 0 0 0 0 0 0,
  r 11 0 0 0 2 4 1 0 0 0 0 0 0 0 0 0,
  r 7 (-4) 0 0 0 0 0 0 0 3 (-4) 0 0 0 0 0,
  r 11 0 2 0 0 (-4) (-1) 0 0 0 0 0 0 0 0 0,
  r (-11) 0 0 2 (-2) (-2) (-2) 0 0 0 0 0 0 0 0 0,
  r 0 (-12) 1 0 0 (-1) 0 0 (-3) 4 0 0 0 0 0 0,
  r 2 (-9) 0 0 0 0 0 0 1 (-1) 0 0 0 0 0 (-1),
  r (-2) (-9) 0 0 0 0 0 0 4 (-6) 0 0 0 0 0 (-1),
  r (-12) 0 2 1 0 (-2) (-1) 0 0 0 0 0 0 0 0 0,
  r 12 0 0 0 0 0 0 0 0 0 0 0 2 0 0 2,
  r 12 0 3 0 2 2 2 0 0 0 0 0 0 0 0 0,
  r (-12) 0 2 0 0 (-2) 0 0 (-3) 3 0 0 0 0 0 0,
  r (-13) 0 0 0 4 (-2) 1 0 0 0 0 0 0 0 0 0,
  r (-13) 0 1 1 2 2 2 0 0 0 0 0 0 0 0 0,
  r (-13) 0 0 0 0 0 0 0 0 4 (-2) 0 0 0 0 2,
  r (-13) 0 3 0 2 (-2) 1 0 0 0 0 0 0 0 0 0,
  r 11 (-2) 0 0 0 0 0 0 0 0 0 3 0 0 0 2,
  r (-7) 6 0 0 0 0 0 0 0 3 (-2) 0 0 0 0 2,
  r 13 0 1 1 0 (-4) 0 0 0 0 0 0 0 0 0 0,
  r 14 0 0 0 2 (-4) 1 0 0 0 0 0 0 0 0 0,
  r 14 0 0 0 0 4 1 0 0 0 0 0 0 0 0 0,
  r 8 6 0 0 0 0 0 0 0 1 2 0 0 0 0 2,
  r (-14) 0 0 1 0 (-2) (-1) 0 0 0 0 0 0 0 0 0,
  r 5 9 0 0 0 0 0 0 8 (-15) 0 0 0 0 0 (-2),
  r (-6) 8 0 0 0 0 0 0 0 3 0 (-2) 0 0 0 2,
  r 4 10 0 0 1 (-1) 1 0 0 (-1) 0 0 2 0 0 0,
  r (-14) 0 1 1 (-2) 0 (-2) 0 0 0 0 0 0 0 0 0,
  r 14 0 3 0 0 (-4) 0 0 0 0 0 0 0 0 0 0,
  r 0 14 0 0 1 0 1 0 0 0 0 0 0 0 0 0,
  r (-9) 5 1 0 0 (-2) 0 0 19 (-21) 3 0 0 0 0 0,
  r 14 0 1 0 2 4 2 0 0 0 0 0 0 0 0 0,
  r (-5) (-10) 0 0 0 0 0 0 0 0 0 0 2 0 0 1,
  r (-12) (-2) 0 0 1 (-1) 1 0 (-5) 7 0 0 0 0 0 0,
  r (-11) 4 0 0 0 0 0 0 0 8 (-16) 4 5 0 0 2,
  r 2 13 0 0 1 (-1) 1 0 0 (-1) 0 2 0 0 0 0,
  r 5 10 0 0 0 0 0 0 0 8 (-16) 4 5 0 0 (-2),
  r (-6) 10 0 0 0 0 0 0 8 (-11) 0 0 0 0 0 (-2),
  r 16 0 2 0 0 (-2) (-2) 0 0 0 0 0 0 0 0 0,
  r (-14) 1 0 0 0 0 0 0 0 2 0 1 0 0 0 2,
  r (-15) 0 1 1 (-2) (-4) (-2) 0 0 0 0 0 0 0 0 0,
  r 0 15 0 0 0 0 0 0 2 (-1) 0 0 0 0 0 2,
  r 14 3 0 0 0 0 0 0 0 2 0 (-1) 0 0 0 2,
  r (-14) 2 1 0 0 (-1) 1 0 0 0 0 0 0 0 0 0,
  r (-17) 0 1 0 0 (-4) (-1) 0 0 0 0 0 0 0 0 0,
  r 16 0 0 0 0 0 0 0 0 4 0 (-2) 0 0 0 2,
  r (-17) 0 0 0 4 0 2 0 0 0 0 0 0 0 0 0,
  r 17 0 0 0 2 (-3) 2 0 0 0 0 0 0 0 0 0,
  r (-11) 6 1 0 (-2) 0 (-2) 0 0 4 (-8) 3 0 0 0 0,
  r 13 (-4) 0 0 0 0 0 0 3 (-5) 0 0 0 0 0 0,
  r (-12) 6 1 0 2 0 2 0 0 1 0 0 0 0 0 0,
  r 17 0 2 0 2 2 1 0 0 0 0 0 0 0 0 0,
  r 18 0 1 0 (-4) 0 (-1) 0 0 0 0 0 0 0 0 0,
  r (-18) 0 0 1 0 2 1 0 0 0 0 0 0 0 0 0,
  r 18 0 0 0 0 0 0 0 5 (-7) 0 0 0 0 0 (-2),
  r (-19) 0 2 0 (-2) (-4) (-1) 0 0 0 0 0 0 0 0 0,
  r 19 0 1 1 0 0 (-1) 0 0 0 0 0 0 0 0 0,
  r 19 0 0 2 0 (-2) 0 0 0 0 0 0 0 0 0 0,
  r (-4) (-16) 0 0 0 0 0 0 8 (-13) 0 0 0 0 0 (-2),
  r (-20) 0 2 (-2) 0 (-2) 0 0 0 0 0 0 0 0 0 0,
  r (-20) 0 1 0 (-2) 1 (-1) 0 0 0 0 0 0 0 0 0,
  r 21 0 2 0 (-2) (-2) (-1) 0 0 0 0 0 0 0 0 0,
  r (-1) 19 0 0 0 0 0 0 0 0 0 2 (-5) 0 0 1,
  r 8 (-14) 0 0 0 0 0 0 0 2 (-4) 0 0 0 0 0,
  r (-1) (-21) 0 0 2 (-2) 0 0 (-5) 6 0 0 0 0 0 0,
  r 4 (-17) 0 0 1 (-1) 1 0 0 (-1) 0 (-1) 0 0 0 0,
  r (-22) 0 1 0 4 (-2) 2 0 0 0 0 0 0 0 0 0,
  r (-22) 0 1 1 2 (-2) 1 0 0 0 0 0 0 0 0 0,
  r 22 0 0 1 2 1 2 0 0 0 0 0 0 0 0 0,
  r (-22) 0 2 1 2 (-2) 2 0 0 0 0 0 0 0 0 0,
  r (-23) 0 1 0 (-2) 0 1 0 0 0 0 0 0 0 0 0,
  r (-15) (-7) 0 0 1 (-1) 1 0 0 (-1) 0 0 (-1) 0 0 0,
  r 23 0 4 0 2 0 2 0 0 0 0 0 0 0 0 0,
  r 23 0 0 0 0 0 0 0 0 1 0 1 0 0 0 2,
  r (-23) 0 1 0 (-2) (-4) (-1) 0 0 0 0 0 0 0 0 0,
  r (-1) 23 0 0 0 0 0 0 5 (-8) 0 0 0 0 0 (-2),
  r (-25) 0 0 3 0 0 0 0 0 0 0 0 0 0 0 0,
  r 25 0 1 2 0 (-2) 0 0 0 0 0 0 0 0 0 0,
  r (-25) 0 0 0 2 1 1 0 0 0 0 0 0 0 0 0,
  r 25 0 2 0 0 (-2) (-1) 0 0 (-2) 0 2 0 0 0 0,
  r 25 0 2 1 0 0 0 0 0 0 0 0 0 0 0 0,
  r (-27) 0 1 (-1) 0 0 (-1) 0 0 0 0 0 0 0 0 0,
  r (-19) (-8) 1 0 0 0 0 0 (-10) 3 0 0 0 0 0 0,
  r (-27) 0 1 0 0 (-2) 2 0 0 0 0 0 0 0 0 0,
  r 29 0 0 0 0 1 (-1) 0 0 0 0 0 0 0 0 0,
  r (-5) (-24) 0 0 0 0 0 0 0 0 0 2 0 0 0 1,
  r 29 0 1 0 0 1 0 0 0 0 0 0 0 0 0 0,
  r 20 (-9) 1 0 0 0 0 0 (-18) 16 0 0 0 0 0 0,
  r 0 (-29) 1 0 (-1) 0 0 0 0 0 0 0 0 0 0 0,
  r 0 (-29) 0 0 0 0 0 0 3 (-4) 0 0 0 0 0 0,
  r 30 0 1 0 2 (-1) 2 0 0 0 0 0 0 0 0 0,
  r 30 0 0 1 0 (-2) 1 0 0 0 0 0 0 0 0 0,
  r (-30) 0 2 0 2 0 0 0 0 0 0 0 0 0 0 0,
  r (-30) 0 1 0 2 1 2 0 0 0 0 0 0 0 0 0,
  r 8 (-22) 0 0 0 0 0 0 0 0 0 1 0 0 0 0,
  r 30 0 0 0 0 0 0 0 1 1 0 0 0 0 0 2,
  r 24 7 0 0 1 (-1) 0 0 0 0 (-2) 0 0 0 0 0,
  r (-24) (-7) 0 0 1 (-1) 1 0 0 0 (-2) 0 0 0 0 0,
  r 32 0 1 0 (-2) 2 (-2) 0 0 0 0 0 0 0 0 0,
  r (-32) 0 1 1 2 0 1 0 0 0 0 0 0 0 0 0,
  r 32 0 1 1 0 0 1 0 0 0 0 0 0 0 0 0,
  r 0 (-32) 1 0 (-1) 0 (-2) 0 0 0 0 0 0 0 0 0,
  r 33 0 0 0 0 0 0 0 0 2 (-2) 0 0 0 0 0,
  r 7 (-26) 0 0 0 0 1 0 0 4 (-8) 3 0 0 0 0,
  r (-33) 0 2 (-1) 0 0 0 0 0 0 0 0 0 0 0 0,
  r (-33) 1 0 0 0 0 0 0 2 0 0 0 0 0 0 2,
  r (-7) (-27) 0 0 0 0 1 0 0 (-4) 8 (-3) 0 0 0 0,
  r 35 0 0 0 0 1 1 0 0 0 0 0 0 0 0 0,
  r (-35) 0 1 0 0 (-2) (-2) 0 0 0 0 0 0 0 0 0,
  r (-31) 6 2 0 0 (-2) 0 0 0 (-2) 0 3 0 0 0 0,
  r (-37) 0 2 1 2 0 2 0 0 0 0 0 0 0 0 0,
  r (-37) 0 0 0 2 2 0 0 0 0 0 0 0 0 0 0,
  r 37 0 1 (-1) 2 0 1 0 0 0 0 0 0 0 0 0,
  r (-37) (-1) 0 0 0 0 0 0 0 2 0 (-2) 0 0 0 0,
  r 15 (-24) 0 0 0 0 0 0 0 1 0 (-2) 0 0 0 0,
  r 39 0 0 3 2 (-2) 2 0 0 0 0 0 0 0 0 0,
  r (-39) 0 2 0 0 (-2) 0 0 0 (-2) 0 2 0 0 0 0,
  r (-40) 0 0 1 (-2) (-2) (-1) 0 0 0 0 0 0 0 0 0,
  r 40 0 1 0 2 (-4) 1 0 0 0 0 0 0 0 0 0,
  r 2 39 0 0 2 (-2) 1 0 (-5) 6 0 0 0 0 0 0,
  r (-41) 0 0 0 0 0 0 0 2 (-4) 0 0 0 0 0 (-2),
  r 41 0 1 (-1) (-2) 0 (-2) 0 0 0 0 0 0 0 0 0,
  r (-42) 0 1 1 (-2) (-2) (-1) 0 0 0 0 0 0 0 0 0,
  r 42 0 0 0 0 2 2 0 0 0 0 0 0 0 0 0,
  r 44 0 0 0 0 0 0 0 4 (-6) 0 0 0 0 0 (-2),
  r 43 0 2 (-1) 2 0 2 0 0 0 0 0 0 0 0 0,
  r (-44) 0 1 (-1) 0 2 0 0 0 0 0 0 0 0 0 0,
  r (-44) 0 1 0 0 2 (-1) 0 0 0 0 0 0 0 0 0,
  r (-44) 0 0 0 0 4 0 0 0 0 0 0 0 0 0 0,
  r 45 0 3 0 2 0 1 0 0 0 0 0 0 0 0 0,
  r (-3) 43 0 0 1 (-1) 1 0 0 (-1) 0 2 (-5) 0 0 0,
  r (-47) 0 1 (-1) 0 0 1 0 0 0 0 0 0 0 0 0,
  r (-46) (-1) 0 0 0 0 0 0 0 3 0 (-1) 0 0 0 2,
  r (-48) 0 0 1 2 2 2 0 0 0 0 0 0 0 0 0,
  r (-11) 37 0 0 0 0 0 0 0 6 (-8) 3 0 0 0 2,
  r (-11) 37 0 0 0 0 0 0 0 2 (-8) 3 0 0 0 (-2),
  r (-50) 0 0 1 0 1 0 0 0 0 0 0 0 0 0 0,
  r (-21) (-30) 0 0 0 0 0 0 8 (-13) 0 0 0 0 0 0,
  r 51 0 1 (-1) (-2) (-2) (-2) 0 0 0 0 0 0 0 0 0,
  r 51 0 1 0 (-2) 2 0 0 0 0 0 0 0 0 0 0,
  r 52 0 1 1 0 (-2) 1 0 0 0 0 0 0 0 0 0,
  r 53 0 0 1 0 0 (-2) 0 0 0 0 0 0 0 0 0,
  r (-52) 0 2 0 0 2 0 0 0 0 0 0 0 0 0 0,
  r 52 0 1 (-1) 2 2 2 0 0 0 0 0 0 0 0 0,
  r (-53) 0 1 (-1) 0 (-1) (-2) 0 0 0 0 0 0 0 0 0,
  r 53 0 0 0 0 0 0 0 2 (-2) 0 0 0 0 0 0,
  r 44 (-11) 0 0 0 0 0 0 0 0 0 2 (-5) 0 0 0,
  r (-1) (-55) 0 0 0 0 0 0 2 (-3) 0 0 0 0 0 0,
  r 38 (-19) 0 0 0 0 0 0 8 (-13) 0 0 0 0 0 (-1),
  r 57 0 1 0 (-2) (-2) 0 0 0 0 0 0 0 0 0 0,
  r 59 0 0 1 2 (-2) 0 0 0 0 0 0 0 0 0 0,
  r (-59) 0 0 1 (-2) 0 (-1) 0 0 0 0 0 0 0 0 0,
  r (-59) 0 0 0 2 0 (-1) 0 0 0 0 0 0 0 0 0,
  r 60 0 0 1 0 2 0 0 0 0 0 0 0 0 0 0,
  r 62 0 0 0 2 4 2 0 0 0 0 0 0 0 0 0,
  r 63 0 0 0 2 (-1) 2 0 0 0 0 0 0 0 0 0,
  r (-63) 0 0 1 0 0 2 0 0 0 0 0 0 0 0 0,
  r (-64) 0 2 0 (-2) 0 1 0 0 0 0 0 0 0 0 0,
  r 66 0 1 1 0 (-2) (-1) 0 0 0 0 0 0 0 0 0,
  r 68 0 1 0 2 (-2) 0 0 0 0 0 0 0 0 0 0,
  r (-73) 0 0 1 2 0 1 0 0 0 0 0 0 0 0 0,
  r 74 0 0 0 2 (-2) (-1) 0 0 0 0 0 0 0 0 0,
  r 78 0 0 1 (-2) 2 0 0 0 0 0 0 0 0 0 0,
  r 40 (-38) 0 0 0 0 0 0 0 1 (-2) 0 0 0 0 0,
  r 41 39 0 0 0 0 1 0 0 (-1) 2 0 0 0 0 0,
  r (-82) 0 0 0 4 (-2) 2 0 0 0 0 0 0 0 0 0,
  r (-83) 0 3 0 2 (-2) 2 0 0 0 0 0 0 0 0 0,
  r (-84) 0 1 (-1) 0 (-2) 0 0 0 0 0 0 0 0 0 0,
  r 86 0 1 0 0 2 1 0 0 0 0 0 0 0 0 0,
  r (-90) 0 2 1 0 (-2) 0 0 0 0 0 0 0 0 0 0,
  r (-91) 0 2 0 2 (-2) 1 0 0 0 0 0 0 0 0 0,
  r 0 93 1 0 (-1) 0 (-1) 0 0 0 0 0 0 0 0 0,
  r 91 2 1 0 0 (-1) (-1) 0 0 0 0 0 0 0 0 0,
  r 98 (-1) 2 0 2 2 2 0 0 0 0 0 0 0 0 0,
  r 102 0 1 0 (-4) 0 (-2) 0 0 0 0 0 0 0 0 0,
  r 104 0 0 0 0 0 0 0 0 0 0 2 0 0 0 2,
  r (-108) 0 2 0 (-2) (-4) (-2) 0 0 0 0 0 0 0 0 0,
  r 109 3 0 0 0 0 0 0 0 1 0 (-1) 0 0 0 0,
  r (-114) 0 0 2 (-2) 2 (-1) 0 0 0 0 0 0 0 0 0,
  r 114 0 2 0 0 (-4) 0 0 0 0 0 0 0 0 0 0,
  r (-115) 0 1 1 2 (-2) 2 0 0 0 0 0 0 0 0 0,
  r 117 0 1 (-1) 0 (-1) (-1) 0 0 0 0 0 0 0 0 0,
  r 118 (-1) 1 0 2 2 1 0 0 0 0 0 0 0 0 0,
  r 119 0 1 0 0 (-4) 0 0 0 0 0 0 0 0 0 0,
  r 123 0 2 0 (-2) (-2) (-2) 0 0 0 0 0 0 0 0 0,
  r 124 0 1 0 0 0 (-2) 0 0 0 0 0 0 0 0 0,
  r (-128) 0 0 0 0 0 0 0 0 8 (-16) 4 5 0 0 0,
  r (-132) 0 0 0 0 0 0 0 1 (-1) 0 0 0 0 0 0,
  r (-135) (-1) 1 0 (-2) (-4) (-2) 0 0 0 0 0 0 0 0 0]

private def y1Series_1 : List Row := [
  r (-140) 1 3 0 0 0 0 0 0 0 0 0 0 0 0 0,
  r (-148) 0 0 0 2 1 2 0 0 0 0 0 0 0 0 0,
  r (-107) (-53) 0 0 1 (-1) 1 0 (-8) 12 0 0 0 0 0 0,
  r 176 0 1 0 0 0 2 0 0 0 0 0 0 0 0 0,
  r 0 177 0 1 (-1) 1 (-1) 0 0 0 0 0 0 0 0 0,
  r (-177) 1 1 0 (-2) 2 (-1) 0 0 0 0 0 0 0 0 0,
  r (-184) 0 0 0 0 0 0 0 3 (-5) 0 0 0 0 0 (-2),
  r 41 (-143) 0 0 0 0 0 0 0 4 (-8) 3 0 0 0 0,
  r (-194) 0 2 0 0 0 1 0 0 0 0 0 0 0 0 0,
  r (-204) 1 2 0 0 0 (-1) 0 0 0 0 0 0 0 0 0,
  r (-221) 1 1 1 2 0 2 0 0 0 0 0 0 0 0 0,
  r (-235) (-1) 0 1 (-2) (-2) (-2) 0 0 0 0 0 0 0 0 0,
  r (-251) (-1) 1 1 (-2) (-2) (-2) 0 0 0 0 0 0 0 0 0,
  r 256 (-1) 1 (-1) 2 0 2 0 0 0 0 0 0 0 0 0,
  r 258 (-1) 3 0 2 0 2 0 0 0 0 0 0 0 0 0,
  r (-273) 0 2 0 (-2) 0 (-2) 0 0 0 0 0 0 0 0 0,
  r 291 0 1 (-1) 0 (-1) 0 0 0 0 0 0 0 0 0 0,
  r (-297) 1 1 0 2 0 0 0 0 0 0 0 0 0 0 0,
  r 301 0 1 1 0 0 0 0 0 0 0 0 0 0 0 0,
  r (-318) 0 0 1 2 (-2) 1 0 0 0 0 0 0 0 0 0,
  r (-128) (-214) 0 0 0 0 0 0 0 0 0 2 (-5) 0 0 (-1),
  r (-361) 0 1 0 (-2) 0 0 0 0 0 0 0 0 0 0 0,
  r (-362) 0 2 0 0 (-2) 1 0 0 0 0 0 0 0 0 0,
  r 376 0 0 0 0 1 0 0 0 0 0 0 0 0 0 0,
  r 387 1 0 1 0 (-2) 0 0 0 0 0 0 0 0 0 0,
  r 358 31 1 0 0 (-1) 0 0 0 0 0 0 0 0 0 0,
  r (-420) 1 1 (-1) 0 0 0 0 0 0 0 0 0 0 0 0,
  r (-422) 0 0 1 (-2) 2 (-1) 0 0 0 0 0 0 0 0 0,
  r (-440) 2 0 0 0 2 (-1) 0 0 0 0 0 0 0 0 0,
  r 476 (-2) 2 0 2 0 1 0 0 0 0 0 0 0 0 0,
  r (-514) 1 2 0 0 (-2) (-1) 0 0 0 0 0 0 0 0 0,
  r (-516) 0 1 0 2 (-2) 1 0 0 0 0 0 0 0 0 0,
  r 560 0 0 0 0 2 1 0 0 0 0 0 0 0 0 0,
  r (-573) 1 2 0 2 (-2) 2 0 0 0 0 0 0 0 0 0,
  r (-585) 2 1 0 0 2 0 0 0 0 0 0 0 0 0 0,
  r 590 (-2) 0 0 2 2 1 0 0 0 0 0 0 0 0 0,
  r (-635) (-1) 0 1 (-2) 0 (-2) 0 0 0 0 0 0 0 0 0,
  r 654 1 1 1 0 (-2) 0 0 0 0 0 0 0 0 0 0,
  r (-673) 1 0 1 2 0 2 0 0 0 0 0 0 0 0 0,
  r 684 (-4) 1 0 2 2 2 0 0 0 0 0 0 0 0 0,
  r 274 (-456) 0 0 1 (-1) 1 0 0 (-1) 0 (-2) 5 0 0 0,
  r (-908) (-2) 1 0 (-2) (-2) (-1) 0 0 0 0 0 0 0 0 0,
  r (-981) 1 2 0 (-2) 0 0 0 0 0 0 0 0 0 0 0,
  r (-1133) (-6) 0 1 0 0 (-1) 0 0 0 0 0 0 0 0 0,
  r 1146 3 1 0 0 (-2) 1 0 0 0 0 0 0 0 0 0,
  r 1244 (-27) 0 1 0 0 1 0 0 0 0 0 0 0 0 0,
  r 1349 (-1) 1 0 0 (-2) (-1) 0 0 0 0 0 0 0 0 0,
  r (-1486) (-9) 0 2 0 0 0 0 0 0 0 0 0 0 0 0,
  r 1818 (-1) 1 0 (-2) 0 (-1) 0 0 0 0 0 0 0 0 0,
  r 1405 (-419) 0 2 2 (-2) 2 0 0 0 0 0 0 0 0 0,
  r 1937 (-1) 0 0 2 (-2) 0 0 0 0 0 0 0 0 0 0,
  r (-2302) 6 0 0 2 0 0 0 0 0 0 0 0 0 0 0,
  r (-2601) 7 2 0 0 0 0 0 0 0 0 0 0 0 0 0,
  r (-2543) 100 1 0 2 (-2) 2 0 0 0 0 0 0 0 0 0,
  r 2761 (-122) 2 0 2 0 2 0 0 0 0 0 0 0 0 0,
  r 2889 0 0 2 (-2) 2 (-2) 0 0 0 0 0 0 0 0 0,
  r 3430 (-125) 0 0 2 2 2 0 0 0 0 0 0 0 0 0,
  r 4082 (-102) 2 0 (-2) 0 (-1) 0 0 0 0 0 0 0 0 0,
  r (-4245) 2 2 0 0 (-2) 0 0 0 0 0 0 0 0 0 0,
  r 4591 (-12) 1 0 2 0 1 0 0 0 0 0 0 0 0 0,
  r (-5160) 16 1 0 0 0 (-1) 0 0 0 0 0 0 0 0 0,
  r (-5305) (-124) 1 0 (-2) (-2) (-2) 0 0 0 0 0 0 0 0 0,
  r (-5617) (-1) 1 0 0 0 1 0 0 0 0 0 0 0 0 0,
  r (-5637) 13 0 0 0 2 0 0 0 0 0 0 0 0 0 0,
  r 10981 320 1 0 (-2) 0 (-2) 0 0 0 0 0 0 0 0 0,
  r (-11394) (-104) 0 0 2 (-2) 1 0 0 0 0 0 0 0 0 0,
  r 13964 15 1 0 0 (-2) 0 0 0 0 0 0 0 0 0 0,
  r 19206 2983 0 1 (-2) 2 (-2) 0 0 0 0 0 0 0 0 0,
  r 26814 (-706) 1 0 2 0 2 0 0 0 0 0 0 0 0 0,
  r 34450 141 0 0 2 0 1 0 0 0 0 0 0 0 0 0,
  r 45968 (-6730) 0 1 2 (-2) 2 0 0 0 0 0 0 0 0 0,
  r (-63254) 78 1 0 0 0 0 0 0 0 0 0 0 0 0 0,
  r (-131221) (-2893) 0 1 0 0 0 0 0 0 0 0 0 0 0 0,
  r (-183732) 4800 0 0 0 0 2 0 0 0 0 0 0 0 0 0,
  r 202468 (-5126) 0 0 2 0 2 0 0 0 0 0 0 0 0 0,
  r 1171449 (-29091) 0 0 2 (-2) 2 0 0 0 0 0 0 0 0 0,
  r 15304179 85332 0 0 0 0 1 0 0 0 0 0 0 0 0 0]

/-- `Y1Series` (ycip06a.cpp:1015-1293). -/
def y1Series : List Row := y1Series_0 ++ y1Series_1

private def y2Series_0 : List Row := [
  r 2 8 0 1 2 0 2 0 0 0 0 0 0 0 0 0,
  r (-7) (-4) 0 0 1 (-1) 1 0 0 (-1) 0 (-2) 5 0 0 0,
  r 0 (-13) 1 0 (-2) (-2) (-1) 0 0 0 0 0 0 0 0 0,
  r 1 (-16) 0 1 0 0 (-1) 0 0 0 0 0 0 0 0 0,
  r 1 (-17) 1 0 0 (-2) 1 0 0 0 0 0 0 0 0 0,
  r 1 20 1 0 0 (-2) (-1) 0 0 0 0 0 0 0 0 0,
  r 2 (-21) 0 1 0 0 1 0 0 0 0 0 0 0 0 0,
  r 7 17 1 0 0 0 0 0 0 0 0 0 0 0 0 0,
  r (-7) (-17) 0 2 2 (-2) 2 0 0 0 0 0 0 0 0 0,
  r 1 27 1 0 (-2) 0 (-1) 0 0 0 0 0 0 0 0 0,
  r 1 31 1 0 2 (-2) 2 0 0 0 0 0 0 0 0 0,
  r (-1) (-33) 2 0 2 0 2 0 0 0 0 0 0 0 0 0,
  r (-1) 35 0 2 (-2) 2 (-2) 0 0 0 0 0 0 0 0 0,
  r (-1) (-41) 0 0 2 2 2 0 0 0 0 0 0 0 0 0,
  r 4 61 2 0 (-2) 0 (-1) 0 0 0 0 0 0 0 0 0,
  r 0 (-64) 1 0 (-2) (-2) (-2) 0 0 0 0 0 0 0 0 0,
  r 3 (-66) 1 0 2 0 1 0 0 0 0 0 0 0 0 0,
  r (-5) (-79) 1 0 0 0 (-1) 0 0 0 0 0 0 0 0 0,
  r (-4) 83 1 0 0 0 1 0 0 0 0 0 0 0 0 0,
  r (-2) 133 1 0 (-2) 0 (-2) 0 0 0 0 0 0 0 0 0,
  r (-10) 173 0 0 2 (-2) 1 0 0 0 0 0 0 0 0 0,
  r (-48) 240 0 1 (-2) 2 (-2) 0 0 0 0 0 0 0 0 0,
  r (-4) (-323) 1 0 2 0 2 0 0 0 0 0 0 0 0 0,
  r 24 (-502) 0 0 2 0 1 0 0 0 0 0 0 0 0 0,
  r 357 (-183) 0 1 0 0 0 0 0 0 0 0 0 0 0 0,
  r (-119) (-561) 0 1 2 (-2) 2 0 0 0 0 0 0 0 0 0,
  r 24 2241 0 0 0 0 2 0 0 0 0 0 0 0 0 0,
  r (-28) (-2446) 0 0 2 0 2 0 0 0 0 0 0 0 0 0,
  r (-103) (-14327) 0 0 2 (-2) 2 0 0 0 0 0 0 0 0 0,
  r 12056 (-230127) 0 0 0 0 1 0 0 0 0 0 0 0 0 0]

/-- `Y2Series` (ycip06a.cpp:1300-1331). -/
def y2Series : List Row := y2Series_0

private def y3Series_0 : List Row := [
  r 13 0 0 1 0 0 0 0 0 0 0 0 0 0 0 0,
  r 18 0 0 0 0 0 2 0 0 0 0 0 0 0 0 0,
  r (-20) 0 0 0 2 0 2 0 0 0 0 0 0 0 0 0,
  r (-116) (-1) 0 0 2 (-2) 2 0 0 0 0 0 0 0 0 0,
  r (-1522) (-161) 0 0 0 0 1 0 0 0 0 0 0 0 0 0]

/-- `Y3Series` (ycip06a.cpp:1338-1344). -/
def y3Series : List Row := y3Series_0

private def y4Series_0 : List Row := [
  r (-2) 11 0 0 0 0 1 0 0 0 0 0 0 0 0 0]

/-- `Y4Series` (ycip06a.cpp:1346-1348). -/
def y4Series : List Row := y4Series_0

end Verif.Cip
