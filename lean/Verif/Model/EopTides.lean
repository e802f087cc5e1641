import Verif.Model.DoodsonArg
/-
Tidal variations of the Earth orientation parameters (src/lib/eop/zonal_tides.cpp, libration.cpp,
ocean_tide_variation.cpp; zonal_tides_iers.cpp is the alternative to the first, left out of the build).

Exact real arithmetic. Amplitudes are stored as integers: 1/10000 of the unit of the source table for the
zonal tides, 1/100 for the other two; this is exact for every entry.
-/
namespace Verif.EopTides
open Verif Doodson Angle

/-- `Table81Entry` (zonal_tides.cpp:8-15) and `Table8Data` (zonal_tides_iers.cpp:8-13). The period, which no
code reads, is left out. -/
structure ZEntry where
  lm : Int
  lpm : Int
  fm : Int
  dm : Int
  om : Int
  dut1B : Int
  dut1C : Int
  dlodB : Int
  dlodC : Int
  domegaB : Int
  domegaC : Int
deriving DecidableEq, Repr

/-- Row of `Table81`: multipliers, then amplitudes in 1/10000 of the table's unit. -/
def z (lm lpm fm dm om b1 c1 b2 c2 b3 c3 : Int) : ZEntry := ⟨lm, lpm, fm, dm, om, b1, c1, b2, c2, b3, c3⟩

/-- `Table81Entry::ksi` (zonal_tides.cpp:14-18), `Table8Data::arg` (zonal_tides_iers.cpp:14-18). -/
noncomputable def ZEntry.ksi (e : ZEntry) (f : Fin 5 → ℝ) : ℝ :=
  anp (f 0 * e.lm + f 1 * e.lpm + f 2 * e.fm + f 3 * e.dm + f 4 * e.om)

/-- `Table81` (zonal_tides.cpp:21-88). -/
def table81 : List ZEntry := [
  z 1 0 2 2 2 (-235) 0 2617 0 (-2209) 0,
  z 2 0 2 0 1 (-404) 0 3706 0 (-3128) 0,
  z 2 0 2 0 2 (-987) 0 9041 0 (-7630) 0,
  z 0 0 2 2 1 (-508) 0 4499 0 (-3797) 0,
  z 0 0 2 2 2 (-1231) 0 10904 0 (-9203) 0,
  z 1 0 2 0 0 (-385) 0 2659 0 (-2244) 0,
  z 1 0 2 0 1 (-4108) 0 28298 0 (-23884) 0,
  z 1 0 2 0 2 (-9926) 0 68291 0 (-57637) 0,
  z 3 0 0 0 0 (-179) 0 1222 0 (-1031) 0,
  z (-1) 0 2 2 1 (-818) 0 5384 0 (-4544) 0,
  z (-1) 0 2 2 2 (-1974) 0 12978 0 (-10953) 0,
  z 1 0 0 2 0 (-761) 0 4976 0 (-4200) 0,
  z 2 0 2 (-2) 2 216 0 (-1060) 0 895 0,
  z 0 1 2 0 2 254 0 (-1211) 0 1022 0,
  z 0 0 2 0 0 (-2989) 0 13804 0 (-11650) 0,
  z 0 0 2 0 1 (-31873) 2010 146890 9266 (-123974) (-7820),
  z 0 0 2 0 2 (-78468) 5320 360910 24469 (-304606) (-20652),
  z 2 0 0 0 (-1) 216 0 (-988) 0 834 0,
  z 2 0 0 0 0 (-3384) 0 15433 0 (-13025) 0,
  z 2 0 0 0 1 179 0 (-813) 0 686 0,
  z 0 (-1) 2 0 2 (-244) 0 1082 0 (-913) 0,
  z 0 0 0 2 (-1) 470 0 (-2004) 0 1692 0,
  z 0 0 0 2 0 (-7341) 0 31240 0 (-26367) 0,
  z 0 0 0 2 1 (-526) 0 2235 0 (-1886) 0,
  z 0 (-1) 0 2 0 (-508) 0 2073 0 (-1749) 0,
  z 1 0 2 (-2) 1 498 0 (-1312) 0 1107 0,
  z 1 0 2 (-2) 2 1006 0 (-2640) 0 2228 0,
  z 1 1 0 0 0 395 0 (-968) 0 817 0,
  z (-1) 0 2 0 0 470 0 (-1099) 0 927 0,
  z (-1) 0 2 0 1 1767 0 (-4115) 0 3473 0,
  z (-1) 0 2 0 2 4352 0 (-10093) 0 8519 0,
  z 1 0 0 0 (-1) 5339 0 (-12224) 0 10317 0,
  z 1 0 0 0 0 (-84046) 2500 191647 5701 (-161749) (-4811),
  z 1 0 0 0 1 5443 0 (-12360) 0 10432 0,
  z 0 0 0 1 0 470 0 (-1000) 0 844 0,
  z 1 (-1) 0 0 0 (-555) 0 1169 0 (-987) 0,
  z (-1) 0 0 2 (-1) 1175 0 (-2332) 0 1968 0,
  z (-1) 0 0 2 0 (-18236) 0 36018 0 (-30399) 0,
  z (-1) 0 0 2 1 1316 0 (-2587) 0 2183 0,
  z 1 0 (-2) 2 (-1) 179 0 (-344) 0 290 0,
  z (-1) (-1) 0 2 0 (-855) 0 1542 0 (-1302) 0,
  z 0 2 2 (-2) 2 (-573) 0 395 0 (-333) 0,
  z 0 1 2 (-2) 1 329 0 (-173) 0 146 0,
  z 0 1 2 (-2) 2 (-18847) 0 9726 0 (-8209) 0,
  z 0 0 2 (-2) 0 2510 0 (-910) 0 768 0,
  z 0 0 2 (-2) 1 11703 0 (-4135) 0 3490 0,
  z 0 0 2 (-2) 2 (-497174) 4330 171056 1490 (-144370) (-1257),
  z 0 2 0 0 0 (-1936) 0 666 0 (-562) 0,
  z 2 0 0 (-2) (-1) 489 0 (-154) 0 130 0,
  z 2 0 0 (-2) 0 (-5471) 0 1670 0 (-1409) 0,
  z 2 0 0 (-2) 1 367 0 (-108) 0 92 0,
  z 0 (-1) 2 (-2) 1 (-451) 0 82 0 (-69) 0,
  z 0 1 0 0 (-1) 921 0 (-167) 0 141 0,
  z 0 (-1) 2 (-2) 2 8281 0 (-1425) 0 1202 0,
  z 0 1 0 0 0 (-158887) 1530 27332 263 (-23068) (-222),
  z 0 1 0 0 1 (-1382) 0 225 0 (-190) 0,
  z 1 0 0 (-1) 0 348 0 (-53) 0 45 0,
  z 2 0 (-2) 0 0 (-1372) 0 (-79) 0 66 0,
  z (-2) 0 2 0 1 4211 0 (-203) 0 171 0,
  z (-1) 1 0 1 0 (-404) 0 8 0 (-7) 0,
  z 0 0 0 0 2 78998 0 1460 0 (-1232) 0,
  z 0 0 0 0 1 (-16172681) 0 (-149471) 0 126153 0]

/-- `Table8` (zonal_tides_iers.cpp:21-456). -/
def table8Iers : List ZEntry := [
  z 1 0 2 2 2 (-235) 0 2617 0 (-2209) 0,
  z 2 0 2 0 1 (-404) 0 3706 0 (-3128) 0,
  z 2 0 2 0 2 (-987) 0 9041 0 (-7630) 0,
  z 0 0 2 2 1 (-508) 0 4499 0 (-3797) 0,
  z 0 0 2 2 2 (-1231) 0 10904 0 (-9203) 0,
  z 1 0 2 0 0 (-385) 0 2659 0 (-2244) 0,
  z 1 0 2 0 1 (-4108) 0 28298 0 (-23884) 0,
  z 1 0 2 0 2 (-9926) 0 68291 0 (-57637) 0,
  z 3 0 0 0 0 (-179) 0 1222 0 (-1031) 0,
  z (-1) 0 2 2 1 (-818) 0 5384 0 (-4544) 0,
  z (-1) 0 2 2 2 (-1974) 0 12978 0 (-10953) 0,
  z 1 0 0 2 0 (-761) 0 4976 0 (-4200) 0,
  z 2 0 2 (-2) 2 216 0 (-1060) 0 895 0,
  z 0 1 2 0 2 254 0 (-1211) 0 1022 0,
  z 0 0 2 0 0 (-2989) 0 13804 0 (-11650) 0,
  z 0 0 2 0 1 (-31873) 2010 146890 9266 (-123974) (-7820),
  z 0 0 2 0 2 (-78468) 5320 360910 24469 (-304606) (-20652),
  z 2 0 0 0 (-1) 216 0 (-988) 0 834 0,
  z 2 0 0 0 0 (-3384) 0 15433 0 (-13025) 0,
  z 2 0 0 0 1 179 0 (-813) 0 686 0,
  z 0 (-1) 2 0 2 (-244) 0 1082 0 (-913) 0,
  z 0 0 0 2 (-1) 470 0 (-2004) 0 1692 0,
  z 0 0 0 2 0 (-7341) 0 31240 0 (-26367) 0,
  z 0 0 0 2 1 (-526) 0 2235 0 (-1886) 0,
  z 0 (-1) 0 2 0 (-508) 0 2073 0 (-1749) 0,
  z 1 0 2 (-2) 1 498 0 (-1312) 0 1107 0,
  z 1 0 2 (-2) 2 1006 0 (-2640) 0 2228 0,
  z 1 1 0 0 0 395 0 (-968) 0 817 0,
  z (-1) 0 2 0 0 470 0 (-1099) 0 927 0,
  z (-1) 0 2 0 1 1767 0 (-4115) 0 3473 0,
  z (-1) 0 2 0 2 4352 0 (-10093) 0 8519 0,
  z 1 0 0 0 (-1) 5339 0 (-12224) 0 10317 0,
  z 1 0 0 0 0 (-84046) 2500 191647 5701 (-161749) (-4811),
  z 1 0 0 0 1 5443 0 (-12360) 0 10432 0,
  z 0 0 0 1 0 470 0 (-1000) 0 844 0,
  z 1 (-1) 0 0 0 (-555) 0 1169 0 (-987) 0,
  z (-1) 0 0 2 (-1) 1175 0 (-2332) 0 1968 0,
  z (-1) 0 0 2 0 (-18236) 0 36018 0 (-30399) 0,
  z (-1) 0 0 2 1 1316 0 (-2587) 0 2183 0,
  z 1 0 (-2) 2 (-1) 179 0 (-344) 0 290 0,
  z (-1) (-1) 0 2 0 (-855) 0 1542 0 (-1302) 0,
  z 0 2 2 (-2) 2 (-573) 0 395 0 (-333) 0,
  z 0 1 2 (-2) 1 329 0 (-173) 0 146 0,
  z 0 1 2 (-2) 2 (-18847) 0 9726 0 (-8209) 0,
  z 0 0 2 (-2) 0 2510 0 (-910) 0 768 0,
  z 0 0 2 (-2) 1 11703 0 (-4135) 0 3490 0,
  z 0 0 2 (-2) 2 (-497174) 4330 171056 1490 (-144370) (-1257),
  z 0 2 0 0 0 (-1936) 0 666 0 (-562) 0,
  z 2 0 0 (-2) (-1) 489 0 (-154) 0 130 0,
  z 2 0 0 (-2) 0 (-5471) 0 1670 0 (-1409) 0,
  z 2 0 0 (-2) 1 367 0 (-108) 0 92 0,
  z 0 (-1) 2 (-2) 1 (-451) 0 82 0 (-69) 0,
  z 0 1 0 0 (-1) 921 0 (-167) 0 141 0,
  z 0 (-1) 2 (-2) 2 8281 0 (-1425) 0 1202 0,
  z 0 1 0 0 0 (-158887) 1530 27332 263 (-23068) (-222),
  z 0 1 0 0 1 (-1382) 0 225 0 (-190) 0,
  z 1 0 0 (-1) 0 348 0 (-53) 0 45 0,
  z 2 0 (-2) 0 0 (-1372) 0 (-79) 0 66 0,
  z (-2) 0 2 0 1 4211 0 (-203) 0 171 0,
  z (-1) 1 0 1 0 (-404) 0 8 0 (-7) 0,
  z 0 0 0 0 2 78998 0 1460 0 (-1232) 0,
  z 0 0 0 0 1 (-16172680) 0 (-149471) 0 126153 0]

/-- Accumulated corrections `dut1, dlod, domega`. -/
structure Zonal where
  dut1 : ℝ
  dlod : ℝ
  domega : ℝ

/-- Body of the loop (zonal_tides.cpp:97-102). -/
noncomputable def zonalStep (f : Fin 5 → ℝ) (a : Zonal) (e : ZEntry) : Zonal :=
  let ksi := e.ksi f
  let sk := Real.sin ksi
  let ck := Real.cos ksi
  { dut1 := a.dut1 + ((e.dut1B / 10000 : ℝ) * sk + (e.dut1C / 10000 : ℝ) * ck)
    dlod := a.dlod + ((e.dlodB / 10000 : ℝ) * ck + (e.dlodC / 10000 : ℝ) * sk)
    domega := a.domega + ((e.domegaB / 10000 : ℝ) * ck + (e.domegaC / 10000 : ℝ) * sk) }

/-- `deop_zonal_tide` (zonal_tides.cpp:91-110). -/
noncomputable def deopZonalTide (f : Fin 5 → ℝ) : Zonal :=
  let a := table81.foldl (zonalStep f) ⟨0, 0, 0⟩
  { a with dut1 := a.dut1 * 1e2, dlod := a.dlod * 1e1 }

/-- Body of the loop (zonal_tides_iers.cpp:464-471). -/
noncomputable def zonalStepIers (f : Fin 5 → ℝ) (a : Zonal) (e : ZEntry) : Zonal :=
  let xi := anp (e.ksi f)
  let sa := Real.sin xi
  let ca := Real.cos xi
  { dut1 := a.dut1 + ((e.dut1B / 10000 : ℝ) * sa + (e.dut1C / 10000 : ℝ) * ca)
    dlod := a.dlod + ((e.dlodB / 10000 : ℝ) * ca + (e.dlodC / 10000 : ℝ) * sa)
    domega := a.domega + ((e.domegaB / 10000 : ℝ) * ca + (e.domegaC / 10000 : ℝ) * sa) }

/-- `deop_zonal_tide` (zonal_tides_iers.cpp:459-478). -/
noncomputable def deopZonalTideIers (f : Fin 5 → ℝ) : Zonal :=
  let a := table8Iers.foldl (zonalStepIers f) ⟨0, 0, 0⟩
  { a with dut1 := a.dut1 * 1e2, dlod := a.dlod * 10 }

/-- `Table5Data` (libration.cpp:7-12) and `Table8Data` (ocean_tide_variation.cpp:7-12). -/
structure DEntry where
  dn : DC
  xps : Int
  xpc : Int
  yps : Int
  ypc : Int
  ut1s : Int
  ut1c : Int
  lods : Int
  lodc : Int
deriving DecidableEq, Repr

/-- Row of a table: Doodson multipliers, then amplitudes in 1/100 of the table's unit. -/
def d (i0 i1 i2 i3 i4 i5 xps xpc yps ypc ut1s ut1c lods lodc : Int) : DEntry :=
  ⟨⟨i0, i1, i2, i3, i4, i5, 0⟩, xps, xpc, yps, ypc, ut1s, ut1c, lods, lodc⟩

/-- `Table5NoLongTides` (libration.cpp:340-529). -/
def table5NoLongTides : List DEntry := [
  d 1 (-2) 0 1 (-1) 0 (-40) 30 (-30) (-40) 0 0 0 0,
  d 1 (-2) 0 1 0 0 (-230) 130 (-130) (-230) 0 0 0 0,
  d 1 (-2) 2 (-1) 0 0 (-40) 30 (-30) (-40) 0 0 0 0,
  d 1 (-1) 0 0 (-1) 0 (-210) 120 (-120) (-210) 0 0 0 0,
  d 1 (-1) 0 0 0 0 (-1140) 650 (-650) (-1140) 0 0 0 0,
  d 1 0 0 1 0 0 80 (-50) 50 80 0 0 0 0,
  d 1 1 (-2) 0 0 0 (-480) 270 (-270) (-480) 0 0 0 0,
  d 1 1 0 0 0 0 1430 (-820) 820 1430 0 0 0 0,
  d 1 1 0 0 1 0 190 (-110) 110 190 0 0 0 0,
  d 1 2 0 (-1) 0 0 80 (-40) 40 80 0 0 0 0,
  d 2 (-2) 0 2 0 0 0 0 0 0 5 (-3) (-30) (-60),
  d 2 (-2) 2 0 0 0 0 0 0 0 6 (-3) (-40) (-70),
  d 2 (-1) 0 1 0 0 0 0 0 0 35 (-20) (-240) (-420),
  d 2 (-1) 2 (-1) 0 0 0 0 0 0 7 (-4) (-50) (-80),
  d 2 0 0 0 (-1) 0 0 0 0 0 (-7) 4 50 80,
  d 2 0 0 0 0 0 0 0 0 0 175 (-101) (-1220) (-2130),
  d 2 1 0 (-1) 0 0 0 0 0 0 (-5) 3 30 60,
  d 2 2 (-3) 0 0 1 0 0 0 0 5 (-3) (-30) (-60),
  d 2 2 (-2) 0 0 0 0 0 0 0 76 (-44) (-550) (-950),
  d 2 2 0 0 0 0 0 0 0 0 21 (-12) (-150) (-260),
  d 2 2 0 0 1 0 0 0 0 0 6 (-4) (-40) (-80)]

/-- `Table5` (libration.cpp:14-338), which no code reads: the 15 long-period terms and the 21 above. -/
def table5 : List DEntry := [
  d 0 0 0 0 1 0 0 60 (-10) (-10) 0 0 0 0,
  d 0 0 0 1 (-1) 0 150 0 (-20) 10 0 0 0 0,
  d 0 0 0 1 0 0 (-2850) (-20) 340 (-390) 0 0 0 0,
  d 0 0 0 1 1 0 (-470) (-10) 60 (-90) 0 0 0 0,
  d 0 0 1 (-1) (-1) (-1) (-70) 20 (-20) (-70) 0 0 0 0,
  d 0 0 1 (-1) 0 (-1) 100 30 (-30) 100 0 0 0 0,
  d 0 0 1 0 0 0 120 20 (-20) 140 0 0 0 0,
  d 0 0 2 (-1) 0 0 130 40 (-20) 290 0 0 0 0,
  d 0 1 0 0 (-1) 0 (-10) (-20) 0 (-170) 0 0 0 0,
  d 0 1 0 0 0 0 90 400 (-10) 3240 0 0 0 0,
  d 0 1 0 0 1 0 10 60 0 510 0 0 0 0,
  d 0 2 (-2) 1 0 0 0 10 0 60 0 0 0 0,
  d 0 2 0 (-1) 0 0 (-10) 30 0 270 0 0 0 0,
  d 0 3 0 0 0 0 (-10) 10 0 90 0 0 0 0,
  d 0 3 0 0 1 0 (-10) 10 0 60 0 0 0 0,
  d 1 (-2) 0 1 (-1) 0 (-40) 30 (-30) (-40) 0 0 0 0,
  d 1 (-2) 0 1 0 0 (-230) 130 (-130) (-230) 0 0 0 0,
  d 1 (-2) 2 (-1) 0 0 (-40) 30 (-30) (-40) 0 0 0 0,
  d 1 (-1) 0 0 (-1) 0 (-210) 120 (-120) (-210) 0 0 0 0,
  d 1 (-1) 0 0 0 0 (-1140) 650 (-650) (-1140) 0 0 0 0,
  d 1 0 0 1 0 0 80 (-50) 50 80 0 0 0 0,
  d 1 1 (-2) 0 0 0 (-480) 270 (-270) (-480) 0 0 0 0,
  d 1 1 0 0 0 0 1430 (-820) 820 1430 0 0 0 0,
  d 1 1 0 0 1 0 190 (-110) 110 190 0 0 0 0,
  d 1 2 0 (-1) 0 0 80 (-40) 40 80 0 0 0 0,
  d 2 (-2) 0 2 0 0 0 0 0 0 5 (-3) (-30) (-60),
  d 2 (-2) 2 0 0 0 0 0 0 0 6 (-3) (-40) (-70),
  d 2 (-1) 0 1 0 0 0 0 0 0 35 (-20) (-240) (-420),
  d 2 (-1) 2 (-1) 0 0 0 0 0 0 7 (-4) (-50) (-80),
  d 2 0 0 0 (-1) 0 0 0 0 0 (-7) 4 50 80,
  d 2 0 0 0 0 0 0 0 0 0 175 (-101) (-1220) (-2130),
  d 2 1 0 (-1) 0 0 0 0 0 0 (-5) 3 30 60,
  d 2 2 (-3) 0 0 1 0 0 0 0 5 (-3) (-30) (-60),
  d 2 2 (-2) 0 0 0 0 0 0 0 76 (-44) (-550) (-950),
  d 2 2 0 0 0 0 0 0 0 0 21 (-12) (-150) (-260),
  d 2 2 0 0 1 0 0 0 0 0 6 (-4) (-40) (-80)]

/-- `Table8` (ocean_tide_variation.cpp:13-652). The table `Madzak16` (653-905), which no code reads, is left out. -/
def table8 : List DEntry := [
  d 1 (-4) 2 1 0 0 0 90 (-90) (-10) 40 (-8) (-40) (-210),
  d 1 (-3) 0 2 (-1) 0 10 60 (-60) 10 19 (-6) (-30) (-110),
  d 1 (-3) 0 2 0 0 30 340 (-340) 30 103 (-31) (-170) (-560),
  d 1 (-3) 2 0 (-1) 0 10 80 (-80) 10 22 (-7) (-40) (-120),
  d 1 (-3) 2 0 0 0 50 420 (-410) 50 119 (-39) (-210) (-640),
  d 1 (-2) 0 1 (-1) 0 120 500 (-500) 120 97 (-47) (-270) (-540),
  d 1 (-2) 0 1 0 0 620 2630 (-2630) 620 512 (-250) (-1400) (-2870),
  d 1 (-2) 2 (-1) (-1) 0 20 90 (-90) 20 17 (-9) (-50) (-100),
  d 1 (-2) 2 (-1) 0 0 130 500 (-500) 130 91 (-47) (-270) (-510),
  d 1 (-1) 0 0 (-2) 0 (-30) (-80) 80 (-30) (-9) 7 40 50,
  d 1 (-1) 0 0 (-1) 0 920 2510 (-2510) 920 303 (-228) (-1330) (-1770),
  d 1 (-1) 0 0 0 0 4880 13290 (-13290) 4880 1602 (-1207) (-7050) (-9360),
  d 1 (-1) 0 2 0 0 (-30) (-90) 90 (-30) (-10) 8 50 60,
  d 1 (-1) 2 0 0 0 (-70) (-170) 170 (-70) (-19) 15 90 110,
  d 1 0 (-2) 1 0 0 (-40) (-90) 90 (-40) (-8) 7 50 50,
  d 1 0 0 (-1) (-1) 0 (-30) (-60) 60 (-30) (-6) 5 30 40,
  d 1 0 0 (-1) 0 0 (-160) (-350) 350 (-160) (-31) 27 170 190,
  d 1 0 0 1 0 0 (-450) (-960) 960 (-450) (-86) 75 460 520,
  d 1 0 0 1 1 0 (-90) (-190) 190 (-90) (-17) 15 90 100,
  d 1 0 2 (-1) 0 0 (-90) (-180) 180 (-90) (-16) 14 80 100,
  d 1 1 (-3) 0 0 1 150 300 (-300) 150 31 (-19) (-120) (-200),
  d 1 1 (-2) 0 (-1) 0 (-30) (-60) 60 (-30) (-6) 3 20 40,
  d 1 1 (-2) 0 0 0 2610 5120 (-5120) 2610 551 (-310) (-1940) (-3450),
  d 1 1 (-1) 0 0 (-1) (-20) (-40) 40 (-20) (-5) 2 20 30,
  d 1 1 (-1) 0 0 1 (-60) (-120) 120 (-60) (-13) 7 40 80,
  d 1 1 0 0 (-1) 0 150 300 (-300) 150 35 (-17) (-110) (-220),
  d 1 1 0 0 0 0 (-7750) (-15170) 15170 (-7750) (-1762) 855 5390 11100,
  d 1 1 0 0 1 0 (-1050) (-2060) 2060 (-1050) (-239) 116 730 1510,
  d 1 1 0 0 2 0 20 40 (-40) 20 5 (-3) (-20) (-30),
  d 1 1 1 0 0 (-1) (-60) (-120) 120 (-60) (-14) 6 40 90,
  d 1 1 2 0 0 0 (-110) (-210) 210 (-110) (-27) 11 70 170,
  d 1 2 (-2) 1 0 0 (-70) (-140) 140 (-70) (-29) 4 30 190,
  d 1 2 0 (-1) 0 0 (-350) (-730) 730 (-350) (-161) 19 120 1050,
  d 1 2 0 (-1) 1 0 (-70) (-140) 140 (-70) (-32) 4 20 210,
  d 1 3 (-2) 0 0 0 (-40) (-110) 110 (-40) (-41) (-1) 0 270,
  d 1 3 0 (-2) 0 0 (-20) (-50) 50 (-20) (-21) (-1) 0 140,
  d 1 3 0 0 0 0 (-110) (-340) 340 (-110) (-144) (-4) (-30) 970,
  d 1 3 0 0 1 0 (-70) (-220) 220 (-70) (-92) (-2) (-20) 620,
  d 1 3 0 0 2 0 (-10) (-50) 50 (-10) (-19) 0 0 130,
  d 1 4 0 (-1) 0 0 0 (-60) 60 0 (-40) (-2) (-20) 280,
  d 1 4 0 (-1) 1 0 0 (-40) 40 0 (-25) (-2) (-10) 180,
  d 2 (-3) 0 3 0 0 (-50) 0 60 20 (-9) (-1) (-10) 100,
  d 2 (-3) 2 1 0 0 (-130) (-20) 150 70 (-22) (-3) (-40) 260,
  d 2 (-2) 0 2 0 0 (-610) (-160) 310 340 (-64) (-18) (-210) 740,
  d 2 (-2) 2 0 0 0 (-760) (-200) 340 420 (-74) (-22) (-260) 870,
  d 2 (-2) 3 0 0 (-1) (-50) (-10) 20 30 (-5) (-2) (-20) 60,
  d 2 (-1) (-1) 1 0 1 50 10 (-10) (-30) 3 1 20 (-40),
  d 2 (-1) 0 1 (-1) 0 210 50 (-40) (-120) 14 6 70 (-170),
  d 2 (-1) 0 1 0 0 (-5690) (-1290) 1110 3290 (-379) (-156) (-1860) 4520,
  d 2 (-1) 1 1 0 (-1) (-50) (-10) 10 30 (-3) (-1) (-20) 40,
  d 2 (-1) 2 (-1) 0 0 (-1100) (-240) 190 640 (-70) (-30) (-360) 830,
  d 2 (-1) 3 (-1) 0 (-1) (-50) (-10) 10 30 (-3) (-1) (-20) 40,
  d 2 0 (-2) 2 0 0 100 10 (-10) (-60) 5 2 30 (-60),
  d 2 0 (-1) 0 0 1 110 10 (-10) (-70) 6 3 30 (-70),
  d 2 0 0 0 (-1) 0 1230 100 (-140) (-730) 60 27 320 (-730),
  d 2 0 0 0 0 0 (-33020) (-2700) 3760 19590 (-1619) (-725) (-8680) 19660,
  d 2 0 1 0 0 (-1) (-100) (-10) 10 60 (-5) (-2) (-30) 60,
  d 2 1 (-2) 1 0 0 250 (-30) (-40) (-150) 11 3 40 (-140),
  d 2 1 0 (-1) 0 0 940 (-140) (-190) (-560) 42 12 140 (-530),
  d 2 1 0 1 0 0 (-240) 40 50 140 (-11) (-3) (-40) 130,
  d 2 1 0 1 1 0 (-100) 20 20 60 (-5) (-1) (-20) 60,
  d 2 2 (-3) 0 0 1 (-850) 350 330 510 (-44) (-2) (-20) 550,
  d 2 2 (-2) 0 0 0 (-14410) 6360 5920 8660 (-755) (-16) (-200) 9480,
  d 2 2 (-1) 0 0 (-1) 120 (-60) (-50) (-70) 6 0 0 (-80),
  d 2 2 0 0 (-1) 0 50 (-20) (-20) (-30) 3 0 0 (-30),
  d 2 2 0 0 0 0 (-3850) 1910 1770 2310 (-210) 4 50 2650,
  d 2 2 0 0 1 0 (-1140) 580 530 690 (-63) 1 20 790,
  d 2 2 0 0 2 0 (-120) 60 60 70 (-7) 0 0 90,
  d 2 3 0 (-1) 0 0 (-180) 180 170 100 (-15) 4 50 190,
  d 2 3 0 (-1) 1 0 (-80) 80 80 50 (-6) 2 20 80,
  d 2 4 0 0 0 0 (-30) 60 70 20 (-5) 2 20 60]

/-- Accumulated corrections `dxp, dyp, dut1, dlod`. -/
structure Diurnal where
  dxp : ℝ
  dyp : ℝ
  dut1 : ℝ
  dlod : ℝ

/-- Body of the loop (libration.cpp:544-550, ocean_tide_variation.cpp:919-925). -/
noncomputable def diurnalStep (f : Fin 6 → ℝ) (a : Diurnal) (e : DEntry) : Diurnal :=
  let arg := e.dn.argument f
  let sa := Real.sin arg
  let ca := Real.cos arg
  { dxp := a.dxp + (sa * (e.xps / 100 : ℝ) + ca * (e.xpc / 100 : ℝ))
    dyp := a.dyp + (sa * (e.yps / 100 : ℝ) + ca * (e.ypc / 100 : ℝ))
    dut1 := a.dut1 + (sa * (e.ut1s / 100 : ℝ) + ca * (e.ut1c / 100 : ℝ))
    dlod := a.dlod + (sa * (e.lods / 100 : ℝ) + ca * (e.lodc / 100 : ℝ)) }

/-- `deop_libration` (libration.cpp:532-554). -/
noncomputable def deopLibration (fargs : Fin 5 → ℝ) (gmst : ℝ) : Diurnal :=
  let dargs := delaunay2doodson fargs gmst
  table5NoLongTides.foldl (diurnalStep dargs) ⟨0, 0, 0, 0⟩

/-- `deop_ocean_tide` (ocean_tide_variation.cpp:908-929). -/
noncomputable def deopOceanTide (fargs : Fin 5 → ℝ) (gmst : ℝ) : Diurnal :=
  let dargs := delaunay2doodson fargs gmst
  table8.foldl (diurnalStep dargs) ⟨0, 0, 0, 0⟩

end Verif.EopTides
