import Verif.Spec.CipTerm
/-
Table 5.2b of the IERS Conventions (2010), as quoted in script/tables52ab.py: one list per power of t.
Columns: coefficient of sin and of cos (hundredths of a microarcsecond), multipliers of
l, l', F, D, Ω, L_Me, L_Ve, L_E, L_Ma, L_J, L_Sa, L_U, L_Ne, p_A.
-/
namespace Verif.Cip.Spec

private def tableY0_0 : List Term := [
  m 153818 920523626 0 0 0 0 1 0 0 0 0 0 0 0 0 0,
  m (-45866) 57303342 0 0 2 (-2) 2 0 0 0 0 0 0 0 0 0,
  m 13741 9784669 0 0 2 0 2 0 0 0 0 0 0 0 0 0,
  m (-2905) (-8961824) 0 0 0 0 2 0 0 0 0 0 0 0 0 0,
  m (-1740) 2243842 0 1 2 (-2) 2 0 0 0 0 0 0 0 0 0,
  m 3180 2006950 0 0 2 0 1 0 0 0 0 0 0 0 0 0,
  m 3670 1290266 1 0 2 0 2 0 0 0 0 0 0 0 0 0,
  m (-1320) (-959272) 0 1 (-2) 2 (-2) 0 0 0 0 0 0 0 0 0,
  m (-19240) 738702 0 1 0 0 0 0 0 0 0 0 0 0 0 0,
  m 392 (-691822) 0 0 2 (-2) 1 0 0 0 0 0 0 0 0 0,
  m 40 (-533113) 1 0 (-2) 0 (-2) 0 0 0 0 0 0 0 0 0,
  m (-90) (-332389) 1 0 0 0 1 0 0 0 0 0 0 0 0 0,
  m 750 314398 1 0 0 0 (-1) 0 0 0 0 0 0 0 0 0,
  m 780 263613 1 0 2 0 1 0 0 0 0 0 0 0 0 0,
  m (-660) 255451 1 0 (-2) (-2) (-2) 0 0 0 0 0 0 0 0 0,
  m (-200) (-242359) 2 0 (-2) 0 (-1) 0 0 0 0 0 0 0 0 0,
  m 680 164501 0 0 2 2 2 0 0 0 0 0 0 0 0 0,
  m 0 (-138700) 0 2 (-2) 2 (-2) 0 0 0 0 0 0 0 0 0,
  m 590 132381 2 0 2 0 2 0 0 0 0 0 0 0 0 0,
  m (-30) (-123389) 1 0 2 (-2) 2 0 0 0 0 0 0 0 0 0,
  m 30 (-107560) 1 0 (-2) 0 (-1) 0 0 0 0 0 0 0 0 0,
  m (-448) 85285 0 1 0 0 1 0 0 0 0 0 0 0 0 0,
  m 10 (-80034) 1 0 0 (-2) (-1) 0 0 0 0 0 0 0 0 0,
  m 3580 (-67499) 1 0 0 0 0 0 0 0 0 0 0 0 0 0,
  m (-140) 69554 1 0 0 (-2) 1 0 0 0 0 0 0 0 0 0,
  m (-50) 68499 0 2 2 (-2) 2 0 0 0 0 0 0 0 0 0,
  m (-262) 64375 0 1 0 0 (-1) 0 0 0 0 0 0 0 0 0,
  m (-150) 52211 1 0 (-2) (-2) (-1) 0 0 0 0 0 0 0 0 0,
  m 27350 16470 0 0 1 (-1) 1 0 0 (-1) 0 (-2) 5 0 0 0,
  m 140 33524 0 0 2 2 1 0 0 0 0 0 0 0 0 0,
  m 190 32660 1 0 2 2 2 0 0 0 0 0 0 0 0 0,
  m 40 32711 0 0 0 2 1 0 0 0 0 0 0 0 0 0,
  m (-50) (-32503) 0 1 2 0 2 0 0 0 0 0 0 0 0 0,
  m (-40) 30703 0 1 (-2) 0 (-2) 0 0 0 0 0 0 0 0 0,
  m 50 30417 2 0 0 (-2) (-1) 0 0 0 0 0 0 0 0 0,
  m (-10) (-30446) 1 0 2 (-2) 1 0 0 0 0 0 0 0 0 0,
  m (-40) (-27681) 2 0 2 (-2) 2 0 0 0 0 0 0 0 0 0,
  m 90 27205 0 0 0 2 (-1) 0 0 0 0 0 0 0 0 0,
  m 30 27222 0 1 (-2) 2 (-1) 0 0 0 0 0 0 0 0 0,
  m 120 26945 2 0 2 0 1 0 0 0 0 0 0 0 0 0,
  m 10 (-22067) 2 0 0 (-2) 1 0 0 0 0 0 0 0 0 0,
  m 12860 (-7710) 0 0 0 0 0 0 0 0 0 2 (-5) 0 0 (-1),
  m 10 (-19079) 0 1 2 (-2) 1 0 0 0 0 0 0 0 0 0,
  m 16790 0 0 1 (-1) 1 (-1) 0 0 0 0 0 0 0 0 0,
  m (-820) (-12348) 1 0 0 (-2) 0 0 0 0 0 0 0 0 0 0,
  m 10 13104 2 0 (-2) 0 (-2) 0 0 0 0 0 0 0 0 0,
  m 40 12664 2 0 0 0 (-1) 0 0 0 0 0 0 0 0 0,
  m 290 (-12228) 0 0 0 2 0 0 0 0 0 0 0 0 0 0,
  m 70 12320 3 0 2 0 2 0 0 0 0 0 0 0 0 0,
  m 40 12320 1 (-1) 2 0 2 0 0 0 0 0 0 0 0 0,
  m (-30) 12070 1 1 (-2) (-2) (-2) 0 0 0 0 0 0 0 0 0,
  m (-50) 11290 0 1 (-2) (-2) (-2) 0 0 0 0 0 0 0 0 0,
  m (-20) (-11294) 2 0 0 0 1 0 0 0 0 0 0 0 0 0,
  m 20 10731 1 0 (-2) 2 (-1) 0 0 0 0 0 0 0 0 0,
  m (-30) (-10620) 1 1 2 0 2 0 0 0 0 0 0 0 0 0,
  m 3190 (-6410) 0 0 1 (-1) 1 0 (-8) 12 0 0 0 0 0 0,
  m 0 8950 0 0 0 0 0 0 3 (-5) 0 0 0 0 0 (-2),
  m 8910 0 1 0 (-1) 0 (-1) 0 0 0 0 0 0 0 0 0,
  m 0 8532 1 0 0 0 2 0 0 0 0 0 0 0 0 0,
  m (-20) (-7100) 0 0 2 1 2 0 0 0 0 0 0 0 0 0,
  m 0 (-7001) 1 (-1) 0 (-1) (-1) 0 0 0 0 0 0 0 0 0,
  m 1390 (-5530) 1 0 0 (-1) 0 0 0 0 0 0 0 0 0 0,
  m 0 6725 0 2 (-2) 2 (-1) 0 0 0 0 0 0 0 0 0,
  m 40 6629 1 0 2 2 1 0 0 0 0 0 0 0 0 0,
  m (-40) 6470 1 0 (-2) (-4) (-2) 0 0 0 0 0 0 0 0 0,
  m 130 (-6090) 2 0 0 0 0 0 0 0 0 0 0 0 0 0,
  m (-20) (-6092) 1 0 0 0 (-2) 0 0 0 0 0 0 0 0 0,
  m 20 (-5920) 2 0 (-2) (-2) (-2) 0 0 0 0 0 0 0 0 0,
  m 110 (-5555) 0 0 2 0 0 0 0 0 0 0 0 0 0 0,
  m 0 (-5560) 1 1 2 (-2) 2 0 0 0 0 0 0 0 0 0,
  m (-10) (-5269) 2 0 2 (-2) 1 0 0 0 0 0 0 0 0 0,
  m (-20) 5180 2 0 (-2) (-4) (-2) 0 0 0 0 0 0 0 0 0,
  m 100 (-4951) 1 0 0 (-1) (-1) 0 0 0 0 0 0 0 0 0,
  m 0 5050 0 0 0 0 0 0 0 0 0 2 0 0 0 2,
  m 250 4770 2 0 0 (-2) 0 0 0 0 0 0 0 0 0 0,
  m 10 4959 1 0 0 2 1 0 0 0 0 0 0 0 0 0,
  m 10 (-4900) 1 0 (-4) 0 (-2) 0 0 0 0 0 0 0 0 0,
  m (-2320) 2460 0 0 0 0 1 0 0 (-1) 2 0 0 0 0 0,
  m 40 4650 2 0 2 2 2 0 0 0 0 0 0 0 0 0,
  m (-10) (-4404) 0 0 2 (-2) (-1) 0 0 0 0 0 0 0 0 0,
  m (-10) (-4219) 0 1 2 0 1 0 0 0 0 0 0 0 0 0,
  m 1330 2690 0 0 0 0 0 0 8 (-13) 0 0 0 0 0 (-1),
  m (-10) (-3990) 3 0 2 (-2) 2 0 0 0 0 0 0 0 0 0,
  m (-10) (-3950) 0 0 4 (-2) 2 0 0 0 0 0 0 0 0 0,
  m 0 (-3911) 1 1 0 (-2) (-1) 0 0 0 0 0 0 0 0 0,
  m (-10) (-3892) 2 0 (-2) 0 1 0 0 0 0 0 0 0 0 0,
  m 10 3695 0 0 2 0 (-1) 0 0 0 0 0 0 0 0 0,
  m (-10) 3459 0 1 (-2) 0 (-1) 0 0 0 0 0 0 0 0 0,
  m 20 (-3255) 0 1 0 0 2 0 0 0 0 0 0 0 0 0,
  m (-10) 3161 1 1 0 (-2) 1 0 0 0 0 0 0 0 0 0,
  m 0 3040 0 0 2 (-1) 2 0 0 0 0 0 0 0 0 0,
  m 20 2940 0 0 2 4 2 0 0 0 0 0 0 0 0 0,
  m 0 (-2791) 1 (-1) 0 0 1 0 0 0 0 0 0 0 0 0,
  m 10 2750 1 0 0 2 (-1) 0 0 0 0 0 0 0 0 0,
  m (-2570) (-170) 0 0 1 (-1) 1 0 0 (-1) 0 2 (-5) 0 0 0,
  m 1990 590 0 0 0 0 0 0 0 2 (-8) 3 0 0 0 (-2),
  m 0 2580 1 (-1) 0 (-1) (-2) 0 0 0 0 0 0 0 0 0,
  m 20 2520 1 (-1) 2 2 2 0 0 0 0 0 0 0 0 0,
  m 0 (-2531) 0 1 0 0 (-2) 0 0 0 0 0 0 0 0 0,
  m 20 2500 3 0 2 0 1 0 0 0 0 0 0 0 0 0,
  m (-10) 2440 1 0 2 (-4) 1 0 0 0 0 0 0 0 0 0,
  m 10 (-2440) 1 (-1) (-2) (-2) (-2) 0 0 0 0 0 0 0 0 0,
  m (-2330) 90 0 0 2 (-2) 1 0 (-5) 6 0 0 0 0 0 0,
  m (-10) 2400 1 1 (-2) (-2) (-1) 0 0 0 0 0 0 0 0 0,
  m (-1800) (-530) 0 0 0 0 0 0 0 6 (-8) 3 0 0 0 2,
  m (-10) (-2280) 0 1 2 2 2 0 0 0 0 0 0 0 0 0,
  m (-10) 2250 0 1 (-2) (-2) (-1) 0 0 0 0 0 0 0 0 0,
  m 10 2160 1 (-1) 2 0 1 0 0 0 0 0 0 0 0 0,
  m 0 (-2130) 0 0 0 0 0 0 4 (-6) 0 0 0 0 0 (-2),
  m 10 2070 2 (-1) 2 0 2 0 0 0 0 0 0 0 0 0,
  m 70 (-2010) 0 0 0 0 0 0 0 3 0 (-1) 0 0 0 2,
  m 0 2051 0 0 0 1 1 0 0 0 0 0 0 0 0 0,
  m 1590 (-450) 0 0 0 0 1 0 0 (-4) 8 (-3) 0 0 0 0,
  m 20 (-1994) 1 0 0 2 0 0 0 0 0 0 0 0 0 0,
  m 0 2011 0 0 0 2 2 0 0 0 0 0 0 0 0 0,
  m 1560 440 0 0 0 0 1 0 0 4 (-8) 3 0 0 0 0,
  m 0 (-2000) 1 (-1) (-2) 0 (-2) 0 0 0 0 0 0 0 0 0,
  m 0 1980 0 0 0 0 0 0 2 (-4) 0 0 0 0 0 (-2),
  m 0 1891 1 1 0 0 1 0 0 0 0 0 0 0 0 0,
  m 430 (-1460) 0 0 1 (-1) 1 0 0 0 (-2) 0 0 0 0 0,
  m (-10) (-1850) 1 1 2 0 1 0 0 0 0 0 0 0 0 0,
  m (-10) 1840 0 1 0 (-2) 1 0 0 0 0 0 0 0 0 0,
  m 0 1810 0 3 2 (-2) 2 0 0 0 0 0 0 0 0 0,
  m 100 1681 0 2 0 0 0 0 0 0 0 0 0 0 0 0,
  m (-10) (-1760) 2 1 2 0 2 0 0 0 0 0 0 0 0 0,
  m (-1760) 0 1 0 (-1) 0 (-2) 0 0 0 0 0 0 0 0 0,
  m (-130) (-1626) 0 0 2 (-2) 0 0 0 0 0 0 0 0 0 0,
  m 0 (-1741) 0 0 0 1 (-1) 0 0 0 0 0 0 0 0 0,
  m 1450 (-270) 0 0 0 0 0 0 0 0 0 2 0 0 0 1,
  m 0 1708 1 0 0 (-2) (-2) 0 0 0 0 0 0 0 0 0,
  m 0 1621 1 (-1) 0 0 (-1) 0 0 0 0 0 0 0 0 0,
  m 0 (-1600) 0 0 0 0 0 0 2 0 0 0 0 0 0 2,
  m 0 (-1531) 1 0 (-2) 2 (-2) 0 0 0 0 0 0 0 0 0,
  m 0 (-1510) 2 0 0 (-2) (-1) 0 0 (-2) 0 2 0 0 0 0,
  m 0 1470 0 0 0 0 0 0 1 1 0 0 0 0 0 2,
  m 0 1440 1 0 2 (-1) 2 0 0 0 0 0 0 0 0 0,
  m (-10) (-1430) 1 0 2 1 2 0 0 0 0 0 0 0 0 0,
  m 0 (-1440) 0 0 2 1 1 0 0 0 0 0 0 0 0 0,
  m 0 (-1381) 1 0 (-2) 0 1 0 0 0 0 0 0 0 0 0,
  m 450 (-930) 0 0 1 (-1) 1 0 0 (-1) 0 0 (-1) 0 0 0,
  m (-1380) 0 0 0 1 0 1 0 0 0 0 0 0 0 0 0,
  m 0 (-1338) 1 0 0 (-2) 2 0 0 0 0 0 0 0 0 0,
  m (-10) 1310 1 0 (-2) (-4) (-1) 0 0 0 0 0 0 0 0 0,
  m 1030 270 0 0 1 (-1) 1 0 0 (-1) 0 (-1) 0 0 0 0,
  m 0 1280 1 0 (-2) 1 (-1) 0 0 0 0 0 0 0 0 0,
  m 0 (-1280) 1 1 2 (-2) 1 0 0 0 0 0 0 0 0 0,
  m 1170 80 0 0 0 0 0 0 0 0 0 2 (-5) 0 0 1,
  m 0 (-1200) 2 0 (-2) (-2) (-1) 0 0 0 0 0 0 0 0 0,
  m 1130 50 0 0 0 0 0 0 5 (-8) 0 0 0 0 0 (-2),
  m 0 1140 0 0 0 0 0 0 0 1 0 1 0 0 0 2,
  m 0 (-1120) 1 1 0 0 (-1) 0 0 0 0 0 0 0 0 0,
  m 10 1090 4 0 2 0 2 0 0 0 0 0 0 0 0 0,
  m 10 (-1077) 1 0 2 0 0 0 0 0 0 0 0 0 0 0,
  m 0 (-1080) 2 1 2 (-2) 2 0 0 0 0 0 0 0 0 0,
  m (-20) 1047 2 0 (-2) 0 0 0 0 0 0 0 0 0 0 0,
  m 0 1050 2 0 (-2) (-4) (-1) 0 0 0 0 0 0 0 0 0,
  m 0 (-1040) 1 0 4 (-2) 2 0 0 0 0 0 0 0 0 0,
  m 0 1040 0 1 2 1 2 0 0 0 0 0 0 0 0 0,
  m 0 (-1020) 0 1 0 2 1 0 0 0 0 0 0 0 0 0,
  m 0 (-1000) 1 0 (-4) 0 (-1) 0 0 0 0 0 0 0 0 0,
  m 0 960 1 0 0 (-4) (-1) 0 0 0 0 0 0 0 0 0,
  m 10 940 2 0 2 2 1 0 0 0 0 0 0 0 0 0,
  m (-760) 170 0 0 0 0 0 0 8 (-13) 0 0 0 0 0 (-2),
  m (-770) 140 0 0 1 (-1) 1 0 0 (-1) 0 2 0 0 0 0,
  m 140 (-750) 0 0 1 (-1) 1 0 (-5) 7 0 0 0 0 0 0,
  m 610 (-270) 0 0 0 0 0 0 0 0 0 0 2 0 0 1,
  m 0 (-870) 0 0 0 0 0 0 5 (-7) 0 0 0 0 0 (-2),
  m (-590) 260 0 0 1 (-1) 1 0 0 (-1) 0 0 2 0 0 0,
  m 0 840 0 0 2 (-4) 1 0 0 0 0 0 0 0 0 0,
  m (-20) (-811) 0 1 0 (-2) 0 0 0 0 0 0 0 0 0 0,
  m (-260) (-570) 1 0 2 0 2 0 0 1 0 0 0 0 0 0,
  m 0 830 0 0 2 (-3) 2 0 0 0 0 0 0 0 0 0,
  m 270 550 1 0 (-2) 0 (-2) 0 0 4 (-8) 3 0 0 0 0,
  m 420 (-400) 0 0 0 0 0 0 0 8 (-16) 4 5 0 0 (-2),
  m (-10) 800 0 0 0 0 0 0 0 4 0 (-2) 0 0 0 2,
  m 0 809 0 1 0 (-2) (-1) 0 0 0 0 0 0 0 0 0,
  m (-130) 670 0 0 0 0 0 0 0 2 0 (-1) 0 0 0 2,
  m 0 (-790) 0 0 4 0 2 0 0 0 0 0 0 0 0 0,
  m 0 780 0 0 0 4 1 0 0 0 0 0 0 0 0 0,
  m (-750) (-20) 0 0 0 0 0 0 2 (-1) 0 0 0 0 0 2,
  m (-50) (-720) 0 0 0 0 0 0 0 2 0 1 0 0 0 2,
  m 490 270 0 0 0 0 0 0 8 (-11) 0 0 0 0 0 (-2),
  m 0 750 1 1 (-2) (-4) (-2) 0 0 0 0 0 0 0 0 0,
  m 0 (-750) 3 0 2 (-2) 1 0 0 0 0 0 0 0 0 0,
  m 0 (-749) 2 0 0 (-2) (-2) 0 0 0 0 0 0 0 0 0,
  m 0 (-720) 0 0 4 (-2) 1 0 0 0 0 0 0 0 0 0,
  m 10 690 1 0 2 4 2 0 0 0 0 0 0 0 0 0,
  m (-560) 140 0 0 0 0 0 0 4 (-6) 0 0 0 0 0 (-1),
  m (-570) (-130) 0 0 0 0 0 0 1 (-1) 0 0 0 0 0 (-1),
  m 0 690 2 1 0 (-2) (-1) 0 0 0 0 0 0 0 0 0,
  m 420 (-270) 0 0 0 0 0 0 8 (-15) 0 0 0 0 0 (-2),
  m 0 690 1 1 (-2) 0 (-2) 0 0 0 0 0 0 0 0 0,
  m (-310) 370 0 0 0 0 0 0 0 1 2 0 0 0 0 2,
  m (-390) (-290) 0 0 0 0 0 0 0 3 0 (-2) 0 0 0 2,
  m 0 660 3 0 0 0 (-1) 0 0 0 0 0 0 0 0 0,
  m (-310) (-350) 0 0 0 0 0 0 0 3 (-2) 0 0 0 0 2,
  m 110 (-539) 1 0 0 (-1) 1 0 0 0 0 0 0 0 0 0,
  m 0 (-640) 2 0 0 (-4) (-1) 0 0 0 0 0 0 0 0 0,
  m 90 550 0 0 0 0 0 0 0 0 0 3 0 0 0 2,
  m 0 (-630) 0 0 2 (-2) 1 0 (-3) 3 0 0 0 0 0 0]

private def tableY0_1 : List Term := [
  m (-10) (-620) 0 0 0 0 0 0 0 4 (-2) 0 0 0 0 2,
  m 0 (-610) 1 1 2 2 2 0 0 0 0 0 0 0 0 0,
  m 0 610 0 0 1 (-1) 1 0 0 3 (-8) 3 0 0 0 0,
  m 0 610 0 0 2 (-1) 1 0 0 0 0 0 0 0 0 0,
  m 350 (-250) 0 0 0 0 1 0 8 (-13) 0 0 0 0 0 0,
  m 0 600 0 0 2 4 1 0 0 0 0 0 0 0 0 0,
  m 0 590 1 (-1) 0 (-2) (-1) 0 0 0 0 0 0 0 0 0,
  m (-90) (-480) 2 0 0 (-2) 1 0 0 (-2) 0 3 0 0 0 0,
  m 0 570 1 (-1) (-2) 2 (-1) 0 0 0 0 0 0 0 0 0,
  m 10 560 3 0 2 2 2 0 0 0 0 0 0 0 0 0,
  m 0 570 0 0 0 0 0 0 0 0 0 0 2 0 0 2,
  m 0 570 2 0 0 2 1 0 0 0 0 0 0 0 0 0,
  m 0 560 2 0 0 (-4) 1 0 0 0 0 0 0 0 0 0,
  m 0 560 1 0 0 (-4) 1 0 0 0 0 0 0 0 0 0,
  m 20 (-540) 2 1 (-2) 0 (-1) 0 0 0 0 0 0 0 0 0,
  m (-90) (-470) 0 0 0 0 0 0 5 (-8) 0 0 0 0 0 (-1),
  m (-40) (-510) 1 1 0 (-2) 0 0 0 0 0 0 0 0 0 0,
  m 0 550 0 2 (-2) (-2) (-2) 0 0 0 0 0 0 0 0 0,
  m 0 (-540) 2 0 2 (-4) 1 0 0 0 0 0 0 0 0 0,
  m 0 (-540) 0 0 0 0 0 0 0 8 (-16) 4 5 0 0 2,
  m 180 360 1 0 0 0 (-1) 0 (-18) 16 0 0 0 0 0 0,
  m 0 530 1 (-1) 0 (-2) (-2) 0 0 0 0 0 0 0 0 0,
  m 0 (-530) 0 0 1 (-1) 1 0 0 (-5) 8 (-3) 0 0 0 0,
  m 0 (-520) 0 0 0 0 0 0 0 1 0 (-3) 0 0 0 (-2),
  m 0 (-519) 0 0 0 2 (-2) 0 0 0 0 0 0 0 0 0,
  m 300 210 0 0 0 0 1 0 (-8) 13 0 0 0 0 0 0,
  m 0 (-510) 0 0 0 0 0 0 6 (-8) 0 0 0 0 0 (-2),
  m 0 507 0 2 0 0 1 0 0 0 0 0 0 0 0 0,
  m 90 (-410) 0 0 0 0 1 0 0 0 0 (-2) 5 0 0 0,
  m (-500) 0 0 0 0 0 0 0 3 (-2) 0 0 0 0 0 2,
  m 0 (-500) 3 0 0 0 0 0 0 0 0 0 0 0 0 0,
  m 0 500 1 (-1) 2 2 1 0 0 0 0 0 0 0 0 0,
  m 0 (-500) 1 (-1) (-2) 0 (-1) 0 0 0 0 0 0 0 0 0,
  m 0 (-490) 4 0 2 (-2) 2 0 0 0 0 0 0 0 0 0,
  m 490 0 0 0 0 0 0 0 2 (-5) 0 0 0 0 0 (-2),
  m 0 (-490) 0 0 0 0 0 0 1 (-3) 0 0 0 0 0 (-2),
  m 90 390 0 0 0 0 1 0 0 0 0 2 (-5) 0 0 0,
  m 0 480 2 1 (-2) (-4) (-2) 0 0 0 0 0 0 0 0 0,
  m (-370) (-110) 0 0 0 0 1 0 0 0 0 1 0 0 0 0,
  m 0 (-472) 0 2 2 (-2) 1 0 0 0 0 0 0 0 0 0,
  m 0 471 1 0 2 0 (-1) 0 0 0 0 0 0 0 0 0,
  m 0 (-450) 2 1 0 (-2) 1 0 0 0 0 0 0 0 0 0,
  m (-150) (-300) 1 0 0 0 1 0 (-18) 16 0 0 0 0 0 0,
  m 0 (-450) 2 (-1) (-2) 0 (-1) 0 0 0 0 0 0 0 0 0,
  m 30 (-411) 1 (-1) 0 0 0 0 0 0 0 0 0 0 0 0,
  m 0 440 1 2 (-2) (-2) (-2) 0 0 0 0 0 0 0 0 0,
  m 0 (-440) 1 (-1) (-2) (-2) (-1) 0 0 0 0 0 0 0 0 0,
  m 0 439 2 0 0 (-2) 2 0 0 0 0 0 0 0 0 0,
  m 0 (-430) 3 0 0 0 1 0 0 0 0 0 0 0 0 0,
  m 0 430 2 0 (-2) 2 (-1) 0 0 0 0 0 0 0 0 0,
  m 0 (-430) 0 1 2 2 1 0 0 0 0 0 0 0 0 0,
  m 20 403 1 0 (-2) 0 0 0 0 0 0 0 0 0 0 0,
  m 20 400 0 2 (-2) 0 (-2) 0 0 0 0 0 0 0 0 0,
  m (-60) 350 0 0 1 (-1) 1 0 0 (-1) 0 0 1 0 0 0,
  m 0 410 3 0 (-2) 0 (-1) 0 0 0 0 0 0 0 0 0,
  m 0 400 1 0 (-4) 2 (-2) 0 0 0 0 0 0 0 0 0,
  m 0 (-400) 0 1 (-2) 1 (-2) 0 0 0 0 0 0 0 0 0,
  m 0 (-391) 1 0 0 (-4) 0 0 0 0 0 0 0 0 0 0,
  m 190 200 0 0 0 0 1 0 0 1 (-2) 0 0 0 0 0,
  m 0 390 2 (-1) 2 2 2 0 0 0 0 0 0 0 0 0,
  m 0 390 0 1 (-2) (-4) (-2) 0 0 0 0 0 0 0 0 0,
  m 0 (-390) 1 0 (-2) (-3) (-2) 0 0 0 0 0 0 0 0 0,
  m 310 (-80) 0 0 0 0 0 0 2 (-4) 0 0 0 0 0 (-1),
  m 0 390 2 (-1) 2 0 1 0 0 0 0 0 0 0 0 0,
  m 0 390 2 0 0 0 2 0 0 0 0 0 0 0 0 0,
  m 0 380 0 0 0 0 0 0 0 2 0 0 0 0 0 2,
  m (-20) 351 1 1 0 0 0 0 0 0 0 0 0 0 0 0,
  m 0 (-360) 1 0 (-2) (-1) (-2) 0 0 0 0 0 0 0 0 0,
  m (-210) 150 0 0 0 0 0 0 0 1 0 2 0 0 0 2,
  m 0 (-360) 1 1 (-2) 1 (-1) 0 0 0 0 0 0 0 0 0,
  m 70 280 0 0 0 0 0 0 3 (-7) 0 0 0 0 0 (-2),
  m (-280) 70 0 0 0 0 0 0 0 0 0 1 0 0 0 (-1),
  m 0 (-350) 0 0 0 0 0 0 0 2 0 0 0 0 0 0,
  m (-290) (-60) 0 0 0 0 0 0 2 (-2) 0 0 0 0 0 (-1),
  m 0 (-340) 1 (-1) 0 (-2) 1 0 0 0 0 0 0 0 0 0,
  m 0 340 2 0 (-4) 0 (-2) 0 0 0 0 0 0 0 0 0,
  m 0 336 0 0 2 0 3 0 0 0 0 0 0 0 0 0,
  m 50 280 2 0 0 (-2) (-1) 0 0 (-2) 0 3 0 0 0 0,
  m 260 (-70) 0 0 0 0 0 0 3 (-5) 0 0 0 0 0 (-1),
  m 100 (-230) 0 0 0 0 0 0 0 0 0 1 0 0 0 2,
  m 0 (-330) 2 1 2 0 1 0 0 0 0 0 0 0 0 0,
  m 0 330 1 1 (-2) 0 (-1) 0 0 0 0 0 0 0 0 0,
  m 0 323 0 2 0 0 (-1) 0 0 0 0 0 0 0 0 0,
  m 0 320 1 (-1) 2 (-2) 2 0 0 0 0 0 0 0 0 0,
  m 0 (-320) 0 2 2 0 2 0 0 0 0 0 0 0 0 0,
  m 0 (-320) 0 0 0 0 0 0 7 (-9) 0 0 0 0 0 (-2),
  m 0 320 0 0 0 0 0 0 0 0 2 0 0 0 0 2,
  m 290 (-30) 0 0 0 0 0 0 0 0 0 1 0 0 0 1,
  m 8 305 0 0 2 (-2) 3 0 0 0 0 0 0 0 0 0,
  m (-70) (-240) 0 0 0 0 0 0 3 (-3) 0 0 0 0 0 2,
  m 0 (-308) 1 0 2 (-4) 2 0 0 0 0 0 0 0 0 0,
  m 0 300 2 0 2 (-1) 2 0 0 0 0 0 0 0 0 0,
  m (-160) 140 1 0 0 (-1) 1 0 0 (-1) 0 2 0 0 0 0,
  m (-290) (-10) 0 0 0 0 0 0 4 (-7) 0 0 0 0 0 (-2),
  m 0 (-290) 2 0 0 (-2) 1 0 0 (-2) 0 2 0 0 0 0,
  m (-250) 40 0 0 1 (-1) 1 0 0 (-2) 2 0 0 0 0 0,
  m 40 (-250) 0 0 0 0 0 0 0 0 0 0 1 0 0 1,
  m 0 (-290) 1 0 2 1 1 0 0 0 0 0 0 0 0 0,
  m 0 289 0 1 (-2) 2 0 0 0 0 0 0 0 0 0 0,
  m 0 (-280) 2 1 (-2) (-2) (-2) 0 0 0 0 0 0 0 0 0,
  m (-250) 30 0 0 1 (-1) 1 0 0 (-1) 0 1 0 0 0 0,
  m (-250) (-30) 0 0 0 0 0 0 0 1 (-2) 0 0 0 0 (-1),
  m 0 (-270) 0 0 2 (-2) 1 0 0 (-2) 0 2 0 0 0 0,
  m 270 0 1 0 (-1) 0 (-3) 0 0 0 0 0 0 0 0 0,
  m 0 (-260) 0 1 0 1 1 0 0 0 0 0 0 0 0 0,
  m 0 (-260) 0 1 0 2 (-1) 0 0 0 0 0 0 0 0 0,
  m 0 260 3 (-1) 2 0 2 0 0 0 0 0 0 0 0 0,
  m 210 50 0 0 1 (-1) 1 0 (-3) 4 0 0 0 0 0 0,
  m 0 250 0 1 0 1 (-1) 0 0 0 0 0 0 0 0 0,
  m 80 170 0 0 0 0 0 0 0 0 0 0 1 0 0 (-1),
  m 190 (-60) 0 0 0 0 0 0 0 6 (-16) 4 5 0 0 (-2),
  m 0 (-250) 2 0 0 0 (-2) 0 0 0 0 0 0 0 0 0,
  m 0 (-240) 2 0 0 2 0 0 0 0 0 0 0 0 0 0,
  m 0 240 2 0 0 2 (-1) 0 0 0 0 0 0 0 0 0,
  m 0 (-240) 1 1 (-2) 2 (-1) 0 0 0 0 0 0 0 0 0,
  m 0 240 1 0 2 (-3) 1 0 0 0 0 0 0 0 0 0,
  m (-190) 50 0 0 0 0 0 0 5 (-7) 0 0 0 0 0 (-1),
  m (-10) (-230) 2 0 0 (-4) 0 0 0 0 0 0 0 0 0 0,
  m 0 230 1 1 2 (-4) 1 0 0 0 0 0 0 0 0 0,
  m 0 (-230) 3 1 2 0 2 0 0 0 0 0 0 0 0 0,
  m (-140) 90 0 0 0 0 0 0 0 0 4 0 0 0 0 2,
  m (-10) (-220) 0 0 0 0 0 0 8 (-10) 0 0 0 0 0 (-2),
  m (-20) (-200) 0 0 0 1 0 0 0 0 0 0 0 0 0 0,
  m 0 220 1 (-2) 2 0 2 0 0 0 0 0 0 0 0 0,
  m 0 (-220) 2 (-1) 2 (-2) 2 0 0 0 0 0 0 0 0 0,
  m 0 220 1 1 2 1 2 0 0 0 0 0 0 0 0 0,
  m 0 220 0 0 0 0 0 0 0 2 (-4) 0 0 0 0 (-2),
  m (-180) (-40) 0 0 0 0 0 0 3 (-3) 0 0 0 0 0 (-1),
  m 0 220 0 1 2 1 1 0 0 0 0 0 0 0 0 0,
  m 0 220 4 0 2 0 1 0 0 0 0 0 0 0 0 0,
  m (-170) 40 0 0 0 0 0 0 1 (-1) 0 0 0 0 0 1,
  m (-80) (-130) 0 0 0 0 0 0 0 5 (-4) 0 0 0 0 2,
  m (-130) (-80) 0 0 0 0 0 0 0 4 (-4) 0 0 0 0 2,
  m 0 210 1 0 (-2) 1 (-2) 0 0 0 0 0 0 0 0 0,
  m 0 210 1 (-1) 2 (-2) 1 0 0 0 0 0 0 0 0 0,
  m 0 (-210) 1 0 4 (-2) 1 0 0 0 0 0 0 0 0 0,
  m 0 (-210) 2 1 2 (-2) 1 0 0 0 0 0 0 0 0 0,
  m 0 210 1 0 2 (-1) 1 0 0 0 0 0 0 0 0 0,
  m 0 (-200) 1 0 2 (-2) (-1) 0 0 0 0 0 0 0 0 0,
  m 0 200 1 0 (-2) 2 1 0 0 0 0 0 0 0 0 0,
  m 0 200 1 (-1) 0 2 (-1) 0 0 0 0 0 0 0 0 0,
  m 0 200 2 (-2) 0 (-2) (-1) 0 0 0 0 0 0 0 0 0,
  m 0 (-200) 1 2 2 (-2) 2 0 0 0 0 0 0 0 0 0,
  m 200 0 0 0 0 0 0 0 6 (-9) 0 0 0 0 0 (-2),
  m 110 (-90) 0 0 0 0 0 0 0 0 0 2 (-5) 0 0 (-2),
  m 160 (-40) 0 0 0 0 0 0 1 (-3) 0 0 0 0 0 (-1),
  m 0 (-191) 1 0 (-2) (-2) 0 0 0 0 0 0 0 0 0 0,
  m 0 (-190) 0 0 0 4 0 0 0 0 0 0 0 0 0 0,
  m 0 190 0 0 4 (-4) 2 0 0 0 0 0 0 0 0 0,
  m 0 (-190) 3 0 (-2) (-2) (-2) 0 0 0 0 0 0 0 0 0,
  m 0 190 2 (-1) 0 (-2) 1 0 0 0 0 0 0 0 0 0,
  m 150 40 0 0 1 (-1) 1 0 (-4) 5 0 0 0 0 0 0,
  m (-150) (-40) 0 0 0 0 0 0 0 2 0 0 0 0 0 1,
  m (-140) (-50) 0 0 1 (-1) 1 0 0 (-1) 0 (-4) 10 0 0 0,
  m (-100) 90 0 0 1 (-1) 1 0 0 (-1) 0 0 0 0 2 0,
  m 0 (-190) 2 0 2 1 2 0 0 0 0 0 0 0 0 0,
  m (-30) 160 0 0 0 0 0 0 0 4 0 (-3) 0 0 0 2,
  m 0 190 0 0 0 4 (-1) 0 0 0 0 0 0 0 0 0,
  m 0 190 1 (-1) 0 2 1 0 0 0 0 0 0 0 0 0,
  m 0 (-180) 2 (-1) 0 0 1 0 0 0 0 0 0 0 0 0,
  m 0 (-180) 2 0 (-4) (-2) (-2) 0 0 0 0 0 0 0 0 0,
  m (-110) 70 0 0 0 0 0 0 0 2 (-4) 0 0 0 0 (-1),
  m 20 (-160) 0 0 0 0 0 0 2 (-3) 0 0 0 0 0 (-1),
  m 0 180 2 0 (-2) (-6) (-2) 0 0 0 0 0 0 0 0 0,
  m 0 (-171) 0 0 2 2 0 0 0 0 0 0 0 0 0 0,
  m (-120) (-50) 0 0 2 (-2) 1 0 0 (-9) 13 0 0 0 0 0,
  m 150 20 0 0 1 1 1 0 0 1 0 0 0 0 0 0,
  m (-60) (-110) 1 0 2 0 1 0 0 (-2) 0 3 0 0 0 0,
  m 60 110 1 0 (-2) 0 (-1) 0 0 (-1) 0 0 0 0 0 0,
  m (-60) (-110) 0 0 0 0 0 0 0 4 (-3) 0 0 0 0 2,
  m (-110) 60 0 0 0 0 1 0 0 (-2) 4 0 0 0 0 0,
  m (-170) 0 0 0 0 0 1 0 2 (-3) 0 0 0 0 0 0,
  m 0 160 0 1 (-2) 2 1 0 0 0 0 0 0 0 0 0,
  m 0 (-160) 2 0 4 (-2) 2 0 0 0 0 0 0 0 0 0,
  m 0 (-160) 0 0 2 3 2 0 0 0 0 0 0 0 0 0,
  m 120 (-40) 0 0 0 0 0 0 0 0 0 3 0 0 0 1,
  m (-50) (-110) 2 0 2 0 2 0 0 2 0 (-3) 0 0 0 0,
  m 60 100 0 0 0 0 0 0 0 3 (-6) 0 0 0 0 (-2),
  m (-130) (-30) 0 0 0 0 0 0 4 (-4) 0 0 0 0 0 (-1),
  m 30 (-130) 0 0 0 0 0 0 0 1 (-2) 0 0 0 0 1,
  m 0 160 1 0 0 4 1 0 0 0 0 0 0 0 0 0,
  m 0 (-160) 1 1 0 2 1 0 0 0 0 0 0 0 0 0,
  m 0 (-160) 0 0 4 0 1 0 0 0 0 0 0 0 0 0,
  m 110 (-50) 0 0 1 (-1) 2 0 0 (-1) 0 0 2 0 0 0,
  m 0 (-150) 1 (-1) 0 2 0 0 0 0 0 0 0 0 0 0,
  m 0 (-150) 0 1 2 (-2) (-1) 0 0 0 0 0 0 0 0 0,
  m 0 150 2 (-1) 0 0 (-1) 0 0 0 0 0 0 0 0 0,
  m 0 (-150) 1 0 0 1 (-1) 0 0 0 0 0 0 0 0 0,
  m 0 (-150) 1 2 0 (-2) (-1) 0 0 0 0 0 0 0 0 0,
  m 150 0 1 0 0 (-1) 1 0 (-3) 4 0 0 0 0 0 0,
  m 0 (-150) 0 1 4 (-2) 2 0 0 0 0 0 0 0 0 0,
  m 130 (-20) 0 0 0 0 1 0 0 0 0 0 1 0 0 0,
  m 0 (-150) 0 0 0 0 0 0 9 (-11) 0 0 0 0 0 (-2),
  m (-120) (-30) 0 0 0 0 0 0 1 1 0 0 0 0 0 1,
  m (-140) 10 0 0 0 0 0 0 0 4 0 (-1) 0 0 0 2,
  m (-50) 100 0 0 2 0 2 0 0 1 0 0 0 0 0 0,
  m (-50) 100 0 0 0 0 0 0 0 1 (-8) 3 0 0 0 (-2),
  m 20 (-130) 0 0 0 0 0 0 0 1 0 (-4) 0 0 0 (-2),
  m 0 150 1 1 (-2) (-4) (-1) 0 0 0 0 0 0 0 0 0,
  m 0 150 1 0 0 (-1) (-2) 0 0 0 0 0 0 0 0 0]

private def tableY0_2 : List Term := [
  m 0 150 0 0 0 0 1 0 1 (-1) 0 0 0 0 0 0,
  m 0 149 2 0 2 (-4) 2 0 0 0 0 0 0 0 0 0,
  m 0 (-141) 2 0 2 0 0 0 0 0 0 0 0 0 0 0,
  m 0 141 0 1 0 2 0 0 0 0 0 0 0 0 0 0,
  m 0 (-140) 0 0 2 (-3) 1 0 0 0 0 0 0 0 0 0,
  m 0 (-140) 1 (-2) (-2) (-2) (-2) 0 0 0 0 0 0 0 0 0,
  m 0 140 1 0 (-2) (-6) (-2) 0 0 0 0 0 0 0 0 0,
  m 0 (-140) 0 0 2 (-2) 1 0 (-4) 4 0 0 0 0 0 0,
  m 110 (-30) 0 0 1 (-1) 1 0 (-1) 0 0 0 0 0 0 0,
  m 0 (-140) 3 0 (-2) (-2) (-1) 0 0 0 0 0 0 0 0 0,
  m 0 140 1 0 2 4 1 0 0 0 0 0 0 0 0 0,
  m 140 0 0 0 1 0 2 0 0 0 0 0 0 0 0 0,
  m (-30) 110 0 0 0 0 1 0 (-3) 5 0 0 0 0 0 0,
  m 20 120 2 (-1) 0 (-2) 0 0 0 0 0 0 0 0 0 0,
  m (-130) 0 1 0 0 (-1) (-1) 0 (-3) 4 0 0 0 0 0 0,
  m 0 (-130) 1 (-1) (-2) (-4) (-2) 0 0 0 0 0 0 0 0 0,
  m 0 130 1 (-2) 2 2 2 0 0 0 0 0 0 0 0 0,
  m (-70) (-60) 0 0 1 (-1) 1 0 8 (-14) 0 0 0 0 0 0,
  m (-80) 50 0 0 1 (-1) 1 0 3 (-6) 0 0 0 0 0 0,
  m (-20) (-110) 0 0 0 0 0 0 6 (-10) 0 0 0 0 0 (-2),
  m 110 20 0 0 0 0 0 0 0 2 0 (-2) 0 0 0 1,
  m 0 (-130) 3 1 2 (-2) 2 0 0 0 0 0 0 0 0 0,
  m 0 (-130) 1 0 (-4) (-2) (-2) 0 0 0 0 0 0 0 0 0,
  m 0 (-130) 0 0 0 0 0 0 3 (-1) 0 0 0 0 0 2,
  m 0 (-130) 0 0 0 0 0 0 0 3 0 0 (-1) 0 0 2,
  m 0 (-129) 0 0 2 (-4) 2 0 0 0 0 0 0 0 0 0,
  m 0 120 1 2 0 (-2) 1 0 0 0 0 0 0 0 0 0,
  m 0 (-120) 2 1 0 0 (-1) 0 0 0 0 0 0 0 0 0,
  m (-40) (-80) 0 0 0 0 1 0 0 8 (-15) 0 0 0 0 0,
  m 0 120 2 0 2 4 2 0 0 0 0 0 0 0 0 0,
  m 120 0 0 0 0 0 0 0 3 (-6) 0 0 0 0 0 (-2),
  m (-70) (-50) 0 0 1 (-1) 1 0 0 (-3) 4 0 0 0 0 0,
  m (-100) 20 0 0 0 0 0 0 6 (-8) 0 0 0 0 0 (-1),
  m (-100) 20 0 0 0 0 0 0 2 1 0 0 0 0 0 2,
  m 20 (-100) 0 0 0 0 0 0 2 1 0 0 0 0 0 1,
  m 40 80 0 0 0 0 0 0 0 1 (-4) 0 0 0 0 (-2),
  m (-40) 80 0 0 0 0 0 0 0 0 3 0 0 0 0 2,
  m 0 (-120) 1 1 2 2 1 0 0 0 0 0 0 0 0 0,
  m 0 115 0 0 0 0 3 0 0 0 0 0 0 0 0 0,
  m 0 110 2 1 0 0 1 0 0 0 0 0 0 0 0 0,
  m (-20) 90 2 0 0 (-2) 1 0 (-6) 8 0 0 0 0 0 0,
  m (-110) 0 0 0 3 0 3 0 0 0 0 0 0 0 0 0,
  m 0 (-110) 2 1 2 2 2 0 0 0 0 0 0 0 0 0,
  m (-110) 0 1 0 1 0 1 0 0 0 0 0 0 0 0 0,
  m 0 110 2 (-1) (-2) (-2) (-2) 0 0 0 0 0 0 0 0 0,
  m 0 110 3 0 2 (-4) 2 0 0 0 0 0 0 0 0 0,
  m 0 110 0 0 0 0 0 0 0 7 (-8) 3 0 0 0 2,
  m 60 (-50) 0 0 0 0 0 0 0 0 0 0 0 0 2 1,
  m (-90) (-20) 0 0 0 0 0 0 5 (-5) 0 0 0 0 0 (-1),
  m (-40) (-70) 0 0 0 0 0 0 0 4 (-7) 0 0 0 0 (-2),
  m (-50) 60 1 (-2) 2 (-2) 1 0 0 0 0 0 0 0 0 0,
  m 0 110 3 0 2 2 1 0 0 0 0 0 0 0 0 0,
  m 0 (-110) 1 (-1) (-2) 2 (-2) 0 0 0 0 0 0 0 0 0,
  m 0 100 0 0 0 0 1 0 (-1) 1 0 0 0 0 0 0,
  m 100 0 0 0 0 0 1 0 (-2) 3 0 0 0 0 0 0,
  m 80 (-20) 0 0 0 0 1 0 0 0 0 (-1) 0 0 0 0,
  m 0 100 1 0 0 1 1 0 0 0 0 0 0 0 0 0,
  m 0 100 0 2 0 (-2) 1 0 0 0 0 0 0 0 0 0,
  m 0 (-100) 3 0 0 (-4) (-1) 0 0 0 0 0 0 0 0 0,
  m (-100) 0 1 0 1 (-2) 1 0 0 0 0 0 0 0 0 0,
  m 0 100 1 (-1) 2 4 2 0 0 0 0 0 0 0 0 0,
  m 100 0 0 0 1 (-1) 1 0 0 (-9) 15 0 0 0 0 0,
  m 100 0 0 0 0 0 0 0 7 (-10) 0 0 0 0 0 (-2),
  m (-80) (-20) 0 0 0 0 0 0 2 0 0 0 0 0 0 1,
  m 40 60 0 0 0 0 0 0 3 (-5) 4 0 0 0 0 2,
  m (-40) (-60) 0 0 0 0 0 0 3 (-9) 4 0 0 0 0 (-2),
  m 0 (-100) 1 0 4 0 2 0 0 0 0 0 0 0 0 0,
  m 0 100 0 1 2 (-4) 1 0 0 0 0 0 0 0 0 0,
  m 0 100 1 0 (-4) 2 (-1) 0 0 0 0 0 0 0 0 0,
  m 0 100 0 2 (-2) (-2) (-1) 0 0 0 0 0 0 0 0 0,
  m 0 100 2 0 (-2) 0 2 0 0 0 0 0 0 0 0 0,
  m 0 (-100) 1 0 0 2 2 0 0 0 0 0 0 0 0 0,
  m 0 91 1 0 2 (-2) 0 0 0 0 0 0 0 0 0 0,
  m 10 80 1 (-1) 0 (-2) 0 0 0 0 0 0 0 0 0 0,
  m 0 90 1 0 (-2) (-2) 1 0 0 0 0 0 0 0 0 0,
  m 0 90 0 1 0 (-2) (-2) 0 0 0 0 0 0 0 0 0,
  m 0 (-90) 2 0 0 (-2) 1 0 (-3) 3 0 0 0 0 0 0,
  m 0 (-90) 1 2 2 0 2 0 0 0 0 0 0 0 0 0,
  m (-70) (-20) 0 0 0 0 0 0 6 (-6) 0 0 0 0 0 (-1),
  m 70 (-20) 0 0 0 0 0 0 1 2 0 0 0 0 0 2,
  m (-30) 60 0 0 0 0 0 0 0 8 (-15) 0 0 0 0 (-2),
  m 0 90 5 0 2 0 2 0 0 0 0 0 0 0 0 0,
  m 0 90 3 0 (-2) (-6) (-2) 0 0 0 0 0 0 0 0 0,
  m 0 (-90) 0 0 1 (-1) 1 0 (-2) 2 0 0 0 0 0 0,
  m (-50) (-40) 0 0 0 0 0 0 0 3 0 (-3) 0 0 0 2,
  m (-90) 0 0 0 0 0 0 0 0 2 0 0 (-1) 0 0 2,
  m 0 (-90) 1 (-1) 2 (-1) 2 0 0 0 0 0 0 0 0 0,
  m 0 90 1 0 (-2) 4 (-1) 0 0 0 0 0 0 0 0 0,
  m 0 90 2 1 (-2) (-4) (-1) 0 0 0 0 0 0 0 0 0,
  m 0 (-90) 4 0 2 (-2) 1 0 0 0 0 0 0 0 0 0,
  m 0 (-90) 1 (-1) 0 (-1) 0 0 0 0 0 0 0 0 0 0,
  m 0 (-80) 2 (-1) 0 0 0 0 0 0 0 0 0 0 0 0,
  m 0 80 3 0 0 (-2) (-1) 0 0 0 0 0 0 0 0 0,
  m 0 (-80) 2 (-1) (-2) (-4) (-2) 0 0 0 0 0 0 0 0 0,
  m 10 70 0 0 0 0 0 0 7 (-11) 0 0 0 0 0 (-2),
  m (-70) 10 0 0 0 0 0 0 2 (-2) 0 0 0 0 0 1,
  m (-60) 20 0 0 0 0 0 0 7 (-9) 0 0 0 0 0 (-1),
  m 20 60 0 0 0 0 0 0 4 (-7) 0 0 0 0 0 (-1),
  m 0 80 0 0 4 (-4) 1 0 0 0 0 0 0 0 0 0,
  m (-50) 30 0 0 0 0 0 0 3 (-5) 0 0 0 0 0 1,
  m (-50) (-30) 0 0 0 0 0 0 0 5 (-5) 0 0 0 0 2,
  m (-50) (-30) 0 0 0 0 0 0 0 5 (-9) 0 0 0 0 (-2),
  m 0 (-80) 0 0 0 0 0 0 0 3 (-1) 0 0 0 0 2,
  m (-30) 50 0 0 0 0 0 0 0 2 0 2 (-5) 0 0 2,
  m (-80) 0 0 0 0 0 0 0 0 2 0 0 1 0 0 2,
  m (-30) (-50) 0 0 0 0 0 0 0 2 0 (-2) 5 0 0 2,
  m (-30) 50 0 0 0 0 1 0 (-3) 7 (-4) 0 0 0 0 0,
  m (-30) (-50) 0 0 0 0 1 0 3 (-7) 4 0 0 0 0 0,
  m 0 80 0 1 0 (-4) (-1) 0 0 0 0 0 0 0 0 0,
  m 0 (-80) 3 0 (-2) 0 (-2) 0 0 0 0 0 0 0 0 0,
  m 0 (-80) 1 0 (-2) (-3) (-1) 0 0 0 0 0 0 0 0 0,
  m 0 (-80) 0 1 (-2) 1 (-1) 0 0 0 0 0 0 0 0 0,
  m 0 80 1 2 (-2) (-2) (-1) 0 0 0 0 0 0 0 0 0,
  m 0 80 1 1 0 (-2) (-2) 0 0 0 0 0 0 0 0 0,
  m 0 (-80) 0 0 0 0 1 0 0 1 0 (-1) 0 0 0 0,
  m 0 76 1 0 2 0 3 0 0 0 0 0 0 0 0 0,
  m 0 70 3 0 0 (-4) 1 0 0 0 0 0 0 0 0 0,
  m 10 (-60) 2 0 0 (-2) (-1) 0 (-6) 8 0 0 0 0 0 0,
  m 0 70 0 1 (-4) 2 (-2) 0 0 0 0 0 0 0 0 0,
  m 70 0 0 0 1 (-1) 1 0 0 (-1) 0 (-1) 1 0 0 0,
  m 0 (-70) 0 0 0 0 1 0 3 (-5) 0 2 0 0 0 0,
  m 0 (-70) 0 1 2 4 2 0 0 0 0 0 0 0 0 0,
  m 0 70 4 0 2 2 2 0 0 0 0 0 0 0 0 0,
  m 0 (-70) 2 0 (-2) (-3) (-2) 0 0 0 0 0 0 0 0 0,
  m (-70) 0 0 0 1 (-1) 1 0 2 (-4) 0 (-3) 0 0 0 0,
  m (-50) 20 0 0 1 (-1) 1 0 0 (-1) 0 3 0 0 0 0,
  m (-20) (-50) 0 0 0 0 0 0 9 (-9) 0 0 0 0 0 (-1),
  m 50 (-20) 0 0 0 0 0 0 2 (-3) 0 0 0 0 0 (-2),
  m 20 50 0 0 0 0 0 0 0 11 0 0 0 0 0 2,
  m (-20) (-50) 0 0 0 0 0 0 0 6 (-15) 0 0 0 0 (-2),
  m 50 (-20) 0 0 0 0 0 0 0 3 0 2 (-5) 0 0 2,
  m (-50) 20 0 0 0 0 0 0 0 3 0 1 0 0 0 2,
  m 0 (-70) 0 0 0 0 0 0 0 3 (-5) 0 0 0 0 (-2),
  m 0 (-70) 0 0 0 0 0 0 0 2 0 (-4) 0 0 0 (-2),
  m 70 0 0 0 0 0 0 0 0 0 0 0 3 0 0 2,
  m (-60) (-10) 0 0 0 0 0 0 3 (-1) 0 0 0 0 0 1,
  m 60 (-10) 0 0 0 0 0 0 3 (-3) 0 0 0 0 0 1,
  m 40 30 0 0 0 0 0 0 0 4 (-8) 0 0 0 0 (-2),
  m 0 70 1 0 0 1 0 0 0 0 0 0 0 0 0 0,
  m 70 0 0 0 1 (-1) 2 0 0 (-2) 2 0 0 0 0 0,
  m 0 70 2 (-1) 2 2 1 0 0 0 0 0 0 0 0 0,
  m 0 70 0 1 (-2) (-4) (-1) 0 0 0 0 0 0 0 0 0,
  m 0 70 1 (-1) 0 0 2 0 0 0 0 0 0 0 0 0,
  m 0 (-60) 0 0 0 0 1 0 0 (-1) 0 1 0 0 0 0,
  m 0 60 0 0 2 2 (-1) 0 0 0 0 0 0 0 0 0,
  m 10 (-50) 0 0 1 (-1) (-1) 0 0 0 (-2) 0 0 0 0 0,
  m 0 60 2 1 0 0 0 0 0 0 0 0 0 0 0 0,
  m 40 20 0 0 0 0 1 0 0 2 (-4) 0 0 0 0 0,
  m 0 60 1 0 0 (-4) (-2) 0 0 0 0 0 0 0 0 0,
  m 0 (-60) 2 1 0 (-4) (-1) 0 0 0 0 0 0 0 0 0,
  m 0 60 1 1 0 (-4) 1 0 0 0 0 0 0 0 0 0,
  m 0 (-60) 0 1 0 1 0 0 0 0 0 0 0 0 0 0,
  m 0 (-60) 1 (-1) 2 (-4) 1 0 0 0 0 0 0 0 0 0,
  m 50 10 0 0 1 (-1) 1 0 (-2) 3 0 0 0 0 0 0,
  m (-50) (-10) 0 0 0 0 0 0 7 (-7) 0 0 0 0 0 (-1),
  m (-10) (-50) 0 0 0 0 0 0 4 (-4) 0 0 0 0 0 2,
  m 10 50 0 0 0 0 0 0 1 (-2) 0 0 0 0 0 1,
  m 50 (-10) 0 0 0 0 0 0 0 5 0 (-2) 0 0 0 2,
  m (-10) 50 0 0 0 0 0 0 0 3 (-6) 0 0 0 0 (-1),
  m 0 (-60) 2 0 0 (-2) (-1) 0 0 (-2) 0 0 5 0 0 0,
  m (-40) 20 2 0 (-1) (-1) (-1) 0 0 (-1) 0 3 0 0 0 0,
  m 0 (-60) 1 0 (-2) (-2) (-2) 0 0 (-2) 0 2 0 0 0 0,
  m 60 0 0 0 2 (-2) 2 0 (-8) 11 0 0 0 0 0 0,
  m 0 (-60) 0 0 2 (-2) 1 0 (-2) 2 0 0 0 0 0 0,
  m 20 40 0 0 1 (-1) 1 0 0 (-1) 0 0 3 0 0 0,
  m (-40) 20 0 0 0 0 0 1 0 (-4) 0 0 0 0 0 (-2),
  m 30 30 0 0 0 0 0 0 8 (-13) 0 0 0 0 0 1,
  m 40 (-20) 0 0 0 0 0 0 0 6 0 0 0 0 0 2,
  m (-40) (-20) 0 0 0 0 0 0 0 6 (-6) 0 0 0 0 2,
  m 0 60 0 0 0 0 0 0 0 1 1 0 0 0 0 2,
  m 0 60 0 0 0 0 0 0 0 1 0 0 1 0 0 2,
  m 40 20 0 0 0 0 0 0 0 1 (-5) 0 0 0 0 (-2),
  m (-20) (-40) 0 0 0 0 0 0 0 0 0 0 3 0 0 1,
  m 0 60 4 0 (-2) (-2) (-1) 0 0 0 0 0 0 0 0 0,
  m 0 (-60) 0 0 0 3 1 0 0 0 0 0 0 0 0 0,
  m 0 60 3 0 0 2 1 0 0 0 0 0 0 0 0 0,
  m 0 60 1 1 0 (-4) (-1) 0 0 0 0 0 0 0 0 0,
  m 0 (-60) 0 0 0 1 2 0 0 0 0 0 0 0 0 0,
  m 0 (-60) 1 1 0 (-2) 2 0 0 0 0 0 0 0 0 0,
  m 0 (-60) 2 0 (-2) 2 (-2) 0 0 0 0 0 0 0 0 0,
  m 0 (-50) 1 1 0 (-4) 0 0 0 0 0 0 0 0 0 0,
  m 0 50 2 0 2 0 (-1) 0 0 0 0 0 0 0 0 0,
  m 10 40 2 1 0 (-2) 0 0 0 0 0 0 0 0 0 0,
  m 0 (-50) 0 1 0 2 2 0 0 0 0 0 0 0 0 0,
  m 10 40 0 0 0 0 1 0 3 (-5) 0 0 0 0 0 0,
  m 0 50 1 (-2) 2 (-2) 2 0 0 0 0 0 0 0 0 0,
  m 0 50 2 1 0 (-4) 1 0 0 0 0 0 0 0 0 0,
  m 0 (-50) 1 (-2) 0 0 1 0 0 0 0 0 0 0 0 0,
  m 30 (-20) 2 0 0 (-2) 1 0 0 (-6) 8 0 0 0 0 0,
  m (-20) 30 2 0 0 (-2) (-1) 0 0 (-5) 6 0 0 0 0 0,
  m 20 30 2 0 (-1) (-1) (-1) 0 0 3 (-7) 0 0 0 0 0,
  m 40 (-10) 0 0 2 0 2 0 0 (-4) 8 (-3) 0 0 0 0,
  m 40 10 0 0 2 0 2 0 0 4 (-8) 3 0 0 0 0,
  m 0 (-50) 0 1 (-2) (-1) (-2) 0 0 0 0 0 0 0 0 0,
  m 0 (-50) 3 (-1) 2 (-2) 2 0 0 0 0 0 0 0 0 0,
  m 30 20 0 0 0 0 0 0 1 0 0 0 0 0 0 2,
  m (-30) 20 0 0 0 0 0 0 0 7 (-13) 0 0 0 0 (-2),
  m 20 30 0 0 0 0 0 0 0 2 (-5) 0 0 0 0 (-2),
  m (-30) 20 0 0 0 0 0 0 0 1 0 3 0 0 0 2,
  m 0 50 3 (-1) 2 2 2 0 0 0 0 0 0 0 0 0]

private def tableY0_3 : List Term := [
  m 0 50 3 (-1) (-2) (-1) (-2) 0 0 0 0 0 0 0 0 0,
  m 0 50 0 0 2 6 2 0 0 0 0 0 0 0 0 0,
  m (-50) 0 0 0 1 (-1) 1 0 0 1 0 0 0 0 0 0,
  m 50 0 0 0 0 0 0 0 9 (-12) 0 0 0 0 0 (-2),
  m 0 (-50) 0 0 0 0 0 0 6 (-9) 0 0 0 0 0 (-1),
  m (-50) 0 0 0 0 0 0 0 4 (-4) 0 0 0 0 0 1,
  m (-50) 0 0 0 0 0 0 0 0 6 (-11) 0 0 0 0 (-2),
  m 0 50 0 0 0 0 0 0 0 1 (-3) 0 0 0 0 (-2),
  m 40 10 0 0 2 (-2) 1 (-1) 0 2 0 0 0 0 0 0,
  m (-40) (-10) 0 0 1 (-1) 1 0 0 (-1) 0 0 0 2 0 0,
  m 40 (-10) 0 0 0 0 0 0 5 (-6) 0 0 0 0 0 2,
  m (-40) 10 0 0 0 0 0 0 5 (-10) 0 0 0 0 0 (-2),
  m 10 40 0 0 0 0 0 0 0 5 0 (-3) 0 0 0 2,
  m 10 40 0 0 0 0 0 0 0 0 0 4 0 0 0 2,
  m (-50) 0 0 0 3 0 2 0 0 0 0 0 0 0 0 0,
  m 0 50 2 0 (-4) 0 (-1) 0 0 0 0 0 0 0 0 0,
  m 0 (-50) 2 1 (-2) (-2) (-1) 0 0 0 0 0 0 0 0 0,
  m 0 50 0 0 2 (-2) 2 0 (-3) 3 0 0 0 0 0 0,
  m 0 50 1 0 0 (-1) 2 0 0 0 0 0 0 0 0 0,
  m 0 (-50) 1 1 0 0 2 0 0 0 0 0 0 0 0 0,
  m 50 0 0 0 2 (-2) 2 0 (-5) 6 0 0 0 0 0 0,
  m 0 (-50) 1 0 0 2 (-2) 0 0 0 0 0 0 0 0 0,
  m 0 50 1 0 (-2) 2 0 0 0 0 0 0 0 0 0 0,
  m 0 (-40) 1 0 2 2 0 0 0 0 0 0 0 0 0 0,
  m (-20) 20 0 0 0 0 2 0 0 (-1) 2 0 0 0 0 0,
  m (-10) 30 1 1 0 2 0 0 0 0 0 0 0 0 0 0,
  m 0 (-40) 1 0 0 4 0 0 0 0 0 0 0 0 0 0,
  m 40 0 1 0 (-1) 0 1 0 0 0 0 0 0 0 0 0,
  m 0 (-40) 0 2 0 (-2) 0 0 0 0 0 0 0 0 0 0,
  m 0 (-40) 1 0 0 (-3) 1 0 0 0 0 0 0 0 0 0,
  m 0 40 4 0 0 0 (-1) 0 0 0 0 0 0 0 0 0,
  m 0 40 1 (-2) 0 (-2) (-1) 0 0 0 0 0 0 0 0 0,
  m (-10) 30 0 0 0 0 1 0 0 (-8) 15 0 0 0 0 0,
  m 0 40 1 0 4 (-4) 2 0 0 0 0 0 0 0 0 0,
  m 0 (-40) 1 1 0 (-1) 1 0 0 0 0 0 0 0 0 0,
  m 0 (-40) 0 0 2 0 2 0 1 (-1) 0 0 0 0 0 0,
  m 0 (-40) 1 1 0 2 (-1) 0 0 0 0 0 0 0 0 0,
  m 0 40 2 (-2) 2 0 2 0 0 0 0 0 0 0 0 0,
  m (-20) (-20) 0 0 1 (-1) 1 0 0 (-1) 0 0 (-2) 0 0 0,
  m 20 (-20) 0 0 1 (-1) 1 0 0 (-1) 0 (-2) 4 0 0 0,
  m 20 20 0 0 0 0 0 0 0 2 2 0 0 0 0 2,
  m (-10) 30 2 (-2) 2 (-2) 2 0 0 0 0 0 0 0 0 0,
  m (-30) 10 0 0 0 0 0 0 6 (-10) 0 0 0 0 0 (-1),
  m 10 30 0 0 0 0 0 0 0 6 (-5) 0 0 0 0 2,
  m (-10) 30 0 0 0 0 0 0 0 2 0 (-2) 0 0 0 2,
  m 0 (-40) 5 0 2 (-2) 2 0 0 0 0 0 0 0 0 0,
  m 0 40 3 0 2 (-1) 2 0 0 0 0 0 0 0 0 0,
  m 0 40 1 2 (-2) (-4) (-2) 0 0 0 0 0 0 0 0 0,
  m 0 40 1 (-1) (-2) (-3) (-2) 0 0 0 0 0 0 0 0 0,
  m 0 40 0 0 4 (-1) 2 0 0 0 0 0 0 0 0 0,
  m 0 (-40) 0 0 2 (-2) 1 0 0 (-2) 0 3 0 0 0 0,
  m 0 (-40) 0 0 2 (-2) 1 0 0 (-2) 0 0 2 0 0 0,
  m 40 0 0 0 2 (-2) 1 0 0 (-8) 11 0 0 0 0 0,
  m (-40) 0 0 0 1 (-1) 1 0 0 (-1) 0 (-1) 2 0 0 0,
  m (-40) 0 0 0 0 0 0 0 8 (-8) 0 0 0 0 0 (-1),
  m (-40) 0 0 0 0 0 0 0 8 (-10) 0 0 0 0 0 (-1),
  m 0 40 0 0 0 0 0 0 5 (-5) 0 0 0 0 0 2,
  m 0 (-40) 0 0 0 0 0 0 5 (-9) 0 0 0 0 0 (-2),
  m 0 (-40) 0 0 0 0 0 0 4 (-2) 0 0 0 0 0 2,
  m (-40) 0 0 0 0 0 0 0 4 (-2) 0 0 0 0 0 1,
  m 40 0 0 0 0 0 0 0 4 (-3) 0 0 0 0 0 2,
  m 0 (-40) 0 0 0 0 0 0 3 (-4) 0 0 0 0 0 (-1),
  m 0 40 0 0 0 0 0 0 3 (-6) 0 0 0 0 0 (-1),
  m 0 40 0 0 0 0 0 0 2 (-6) 0 0 0 0 0 (-2),
  m 40 0 0 0 0 0 0 0 0 8 (-15) 0 0 0 0 (-1),
  m 0 (-40) 0 0 0 0 0 0 0 6 0 0 0 0 0 0,
  m (-40) 0 0 0 0 0 0 0 0 5 (-2) 0 0 0 0 2,
  m 0 40 0 0 0 0 0 0 0 5 (-3) 0 0 0 0 2,
  m 40 0 0 0 0 0 0 0 0 0 0 0 1 0 0 2,
  m 0 (-40) 4 0 0 0 0 0 0 0 0 0 0 0 0 0,
  m 0 (-40) 1 (-2) (-2) 0 (-2) 0 0 0 0 0 0 0 0 0,
  m 0 (-40) 1 2 2 (-2) 1 0 0 0 0 0 0 0 0 0,
  m 0 (-40) 0 2 2 0 1 0 0 0 0 0 0 0 0 0,
  m 0 (-40) 3 1 2 0 1 0 0 0 0 0 0 0 0 0,
  m (-10) 30 0 2 (-2) 0 (-1) 0 0 0 0 0 0 0 0 0,
  m 0 40 1 1 2 1 1 0 0 0 0 0 0 0 0 0,
  m 0 40 3 (-1) 2 0 1 0 0 0 0 0 0 0 0 0,
  m 0 40 2 0 2 (-1) 1 0 0 0 0 0 0 0 0 0,
  m 0 (-40) 2 0 0 2 2 0 0 0 0 0 0 0 0 0,
  m 40 0 0 0 1 (-1) 2 0 0 (-1) 0 2 0 0 0 0,
  m 0 40 0 0 2 (-2) (-2) 0 0 0 0 0 0 0 0 0,
  m 21 10 0 0 1 (-1) 2 0 0 (-1) 0 (-2) 5 0 0 0,
  m 0 30 2 0 (-4) 2 (-2) 0 0 0 0 0 0 0 0 0,
  m (-30) 0 0 0 2 (-2) (-1) 0 (-5) 6 0 0 0 0 0 0,
  m 0 (-30) 2 (-2) 0 (-2) 1 0 0 0 0 0 0 0 0 0,
  m 0 30 0 0 0 4 2 0 0 0 0 0 0 0 0 0,
  m 0 30 2 0 0 (-2) (-1) 0 (-3) 3 0 0 0 0 0 0,
  m 20 10 0 0 1 (-1) (-1) 0 0 (-1) 0 (-1) 0 0 0 0,
  m 0 (-30) 1 (-2) 0 (-2) 1 0 0 0 0 0 0 0 0 0,
  m 0 30 1 (-2) 0 0 (-1) 0 0 0 0 0 0 0 0 0,
  m 30 0 0 0 0 0 1 0 0 0 0 0 (-1) 0 0 0,
  m 0 30 2 0 0 (-3) (-1) 0 0 0 0 0 0 0 0 0,
  m 0 (-30) 2 1 (-2) 0 1 0 0 0 0 0 0 0 0 0,
  m (-20) 10 2 0 0 (-2) (-1) 0 0 (-6) 8 0 0 0 0 0,
  m (-10) (-20) 2 0 (-1) (-1) 1 0 0 3 (-7) 0 0 0 0 0,
  m 0 (-30) 2 1 2 (-4) 1 0 0 0 0 0 0 0 0 0,
  m 10 (-20) 1 0 0 (-1) 1 0 0 (-3) 4 0 0 0 0 0,
  m 0 30 2 (-1) (-2) 0 (-2) 0 0 0 0 0 0 0 0 0,
  m 0 30 0 0 2 0 2 0 (-1) 1 0 0 0 0 0 0,
  m 0 (-30) 0 0 2 0 2 0 0 (-1) 0 1 0 0 0 0,
  m 0 30 0 0 2 0 2 0 0 1 0 (-1) 0 0 0 0,
  m 0 30 0 1 0 (-4) 1 0 0 0 0 0 0 0 0 0,
  m (-20) 10 0 0 0 0 1 0 0 (-9) 17 0 0 0 0 0,
  m 0 (-30) 1 1 4 (-2) 2 0 0 0 0 0 0 0 0 0,
  m (-10) (-20) 2 0 2 0 1 0 0 1 0 0 0 0 0 0,
  m (-10) 20 1 0 (-2) 0 (-2) 0 (-10) 3 0 0 0 0 0 0,
  m 20 (-10) 0 0 2 (-2) 1 0 0 (-7) 9 0 0 0 0 0,
  m (-10) (-20) 0 0 0 0 0 0 2 (-3) 0 0 0 0 0 1,
  m 20 10 0 0 0 0 0 0 1 (-2) 0 0 0 0 0 (-2),
  m 20 (-10) 0 0 0 0 0 0 1 (-4) 0 0 0 0 0 (-2),
  m (-20) (-10) 0 0 0 0 0 0 0 6 (-10) 0 0 0 0 (-2),
  m (-10) (-20) 0 0 0 0 0 0 0 5 (-8) 0 0 0 0 (-2),
  m 20 (-10) 0 0 0 0 0 0 0 3 (-5) 0 0 0 0 (-1),
  m 20 10 0 0 0 0 0 0 0 2 (-6) 0 0 0 0 (-2),
  m 0 30 4 0 2 (-4) 2 0 0 0 0 0 0 0 0 0,
  m 0 (-30) 2 2 2 (-2) 2 0 0 0 0 0 0 0 0 0,
  m 0 30 2 1 2 1 2 0 0 0 0 0 0 0 0 0,
  m 0 30 2 0 0 (-2) (-1) 0 0 (-2) 0 4 (-5) 0 0 0,
  m 0 (-30) 2 0 0 (-2) (-2) 0 (-3) 3 0 0 0 0 0 0,
  m 30 0 2 0 (-1) (-1) (-1) 0 0 (-1) 0 0 0 0 0 0,
  m 0 (-30) 1 0 2 3 2 0 0 0 0 0 0 0 0 0,
  m 0 30 1 0 2 (-2) 2 0 0 (-2) 0 2 0 0 0 0,
  m 30 0 1 0 1 (-1) 1 0 0 (-1) 0 0 0 0 0 0,
  m 30 0 1 0 (-1) 1 (-1) 0 (-18) 17 0 0 0 0 0 0,
  m 0 (-30) 1 0 (-1) (-1) (-1) 0 20 (-20) 0 0 0 0 0 0,
  m 0 (-30) 1 0 (-2) (-2) (-2) 0 (-3) 3 0 0 0 0 0 0,
  m 0 (-30) 0 2 2 2 2 0 0 0 0 0 0 0 0 0,
  m 0 30 0 2 (-2) (-4) (-2) 0 0 0 0 0 0 0 0 0,
  m 0 30 0 1 2 3 2 0 0 0 0 0 0 0 0 0,
  m 0 (-30) 0 0 2 (-2) 1 0 0 (-1) 0 1 0 0 0 0,
  m 30 0 0 0 1 (-1) 1 0 1 (-2) 0 0 0 0 0 0,
  m 30 0 0 0 1 (-1) 1 0 (-2) 1 0 0 0 0 0 0,
  m (-30) 0 0 0 0 0 0 0 9 (-11) 0 0 0 0 0 (-1),
  m 0 30 0 0 0 0 0 0 8 (-16) 0 0 0 0 0 (-2),
  m (-30) 0 0 0 0 0 0 0 5 (-3) 0 0 0 0 0 1,
  m 30 0 0 0 0 0 0 0 0 6 0 0 0 0 0 1,
  m (-30) 0 0 0 0 0 0 0 0 6 (-7) 0 0 0 0 2,
  m 0 30 0 0 0 0 0 0 0 4 0 0 (-2) 0 0 2,
  m 30 0 0 0 0 0 0 0 0 4 (-8) 1 5 0 0 (-2),
  m (-30) 0 0 0 0 0 0 0 0 3 0 0 (-2) 0 0 2,
  m 30 0 0 0 0 0 0 0 0 1 0 (-1) 0 0 0 1,
  m 30 0 0 0 0 0 0 0 0 1 0 (-3) 0 0 0 (-1),
  m 30 0 0 0 0 0 0 0 0 1 (-6) 0 0 0 0 (-2),
  m 0 (-30) 0 0 0 0 0 0 0 0 0 4 (-5) 0 0 2,
  m 0 30 0 0 0 0 0 0 0 0 0 0 5 0 0 2,
  m 0 30 0 0 0 0 0 0 0 0 0 0 0 2 0 2,
  m 30 0 0 0 0 0 0 0 0 0 0 0 0 2 0 1,
  m 0 30 0 0 0 0 0 0 0 0 0 0 0 0 2 2,
  m 0 (-30) 1 0 0 (-1) (-1) 0 0 (-2) 2 0 0 0 0 0,
  m 0 (-30) 2 (-1) 2 (-1) 2 0 0 0 0 0 0 0 0 0,
  m 30 0 2 0 (-1) (-1) (-1) 0 0 (-1) 0 2 0 0 0 0,
  m 0 30 1 0 0 (-6) (-1) 0 0 0 0 0 0 0 0 0,
  m 0 (-30) 1 (-1) 0 (-4) (-1) 0 0 0 0 0 0 0 0 0,
  m 0 30 1 0 0 4 (-1) 0 0 0 0 0 0 0 0 0,
  m 0 (-30) 3 0 0 (-2) 1 0 0 0 0 0 0 0 0 0,
  m 30 0 0 0 0 0 1 0 5 (-8) 0 0 0 0 0 0,
  m 0 (-30) 1 (-2) (-2) (-2) (-1) 0 0 0 0 0 0 0 0 0,
  m 0 (-30) 0 1 4 (-2) 1 0 0 0 0 0 0 0 0 0,
  m 0 (-30) 2 0 4 (-2) 1 0 0 0 0 0 0 0 0 0,
  m 0 (-30) 0 0 2 3 1 0 0 0 0 0 0 0 0 0,
  m 30 0 0 0 1 (-1) 2 0 0 (-1) 0 1 0 0 0 0,
  m 0 30 1 (-2) 2 0 1 0 0 0 0 0 0 0 0 0,
  m 0 (-30) 2 (-1) 2 (-2) 1 0 0 0 0 0 0 0 0 0,
  m 0 30 2 0 (-2) (-6) (-1) 0 0 0 0 0 0 0 0 0,
  m 0 (-30) 2 0 (-4) (-2) (-1) 0 0 0 0 0 0 0 0 0,
  m 0 (-30) 2 0 2 1 1 0 0 0 0 0 0 0 0 0,
  m 0 30 0 0 1 (-1) 2 0 0 0 (-2) 0 0 0 0 0,
  m (-30) 0 0 0 0 0 2 0 0 4 (-8) 3 0 0 0 0,
  m (-30) 0 0 0 0 0 2 0 0 (-4) 8 (-3) 0 0 0 0,
  m 0 30 0 0 0 1 (-2) 0 0 0 0 0 0 0 0 0,
  m 0 (-30) 0 0 2 0 (-2) 0 0 0 0 0 0 0 0 0,
  m 0 (-30) 0 1 0 (-2) 2 0 0 0 0 0 0 0 0 0,
  m (-20) (-10) 0 0 0 0 1 0 0 1 0 (-2) 0 0 0 0,
  m 0 (-30) 0 0 0 0 1 0 2 (-2) 0 0 0 0 0 0,
  m 0 (-30) 1 1 2 (-4) 2 0 0 0 0 0 0 0 0 0,
  m 0 (-21) 0 1 2 (-2) 3 0 0 0 0 0 0 0 0 0,
  m 0 20 2 0 2 (-2) 0 0 0 0 0 0 0 0 0 0,
  m 0 (-20) 0 0 0 0 1 0 (-2) 2 0 0 0 0 0 0,
  m 0 (-20) 3 0 2 0 0 0 0 0 0 0 0 0 0 0,
  m 0 (-20) 0 0 0 0 1 0 0 (-2) 2 0 0 0 0 0,
  m 0 (-20) 0 1 0 (-4) 0 0 0 0 0 0 0 0 0 0,
  m 20 0 0 0 0 0 1 0 (-3) 4 0 0 0 0 0 0,
  m 0 (-20) 3 0 0 2 0 0 0 0 0 0 0 0 0 0,
  m 0 20 0 3 0 0 0 0 0 0 0 0 0 0 0 0,
  m 0 20 2 0 (-2) (-2) 0 0 0 0 0 0 0 0 0 0,
  m 20 0 2 0 2 (-4) 0 0 0 0 0 0 0 0 0 0,
  m 0 20 1 0 0 (-3) (-1) 0 0 0 0 0 0 0 0 0,
  m 0 (-20) 2 0 2 (-2) (-1) 0 0 0 0 0 0 0 0 0,
  m 0 20 1 0 2 (-4) (-1) 0 0 0 0 0 0 0 0 0,
  m 0 20 0 0 1 (-1) 2 0 0 (-1) 0 0 1 0 0 0,
  m 0 20 1 0 (-2) 1 1 0 0 0 0 0 0 0 0 0,
  m 0 (-20) 1 2 0 (-2) 0 0 0 0 0 0 0 0 0 0,
  m 0 (-20) 2 0 (-2) (-2) 1 0 0 0 0 0 0 0 0 0,
  m 0 (-20) 1 0 0 (-1) 1 0 0 (-1) 0 1 0 0 0 0,
  m 0 (-20) 2 0 0 (-3) 1 0 0 0 0 0 0 0 0 0,
  m 0 (-20) 1 1 0 1 1 0 0 0 0 0 0 0 0 0,
  m 0 20 1 1 0 1 (-1) 0 0 0 0 0 0 0 0 0,
  m 0 (-20) 2 0 0 (-1) 1 0 0 0 0 0 0 0 0 0,
  m 0 20 1 2 0 0 1 0 0 0 0 0 0 0 0 0,
  m 0 (-20) 2 0 0 (-2) 1 0 0 (-5) 6 0 0 0 0 0]

private def tableY0_4 : List Term := [
  m 0 20 1 0 0 (-2) (-1) 0 0 (-2) 0 2 0 0 0 0,
  m 0 (-20) 1 0 0 (-2) 1 0 0 (-2) 0 2 0 0 0 0,
  m 0 20 2 0 (-4) 2 (-1) 0 0 0 0 0 0 0 0 0,
  m 20 0 0 0 2 (-2) 1 0 0 4 (-8) 3 0 0 0 0,
  m 20 0 0 0 2 (-2) 1 0 0 (-4) 8 (-3) 0 0 0 0,
  m 0 20 2 (-1) 0 2 (-1) 0 0 0 0 0 0 0 0 0,
  m 0 20 1 0 0 (-1) (-1) 0 0 (-3) 4 0 0 0 0 0,
  m 10 (-10) 1 (-2) 0 (-2) 0 0 0 0 0 0 0 0 0 0,
  m 0 (-20) 2 0 0 (-2) (-1) 0 0 (-2) 0 3 (-1) 0 0 0,
  m 0 20 1 (-1) (-4) 2 (-2) 0 0 0 0 0 0 0 0 0,
  m 0 20 3 0 0 2 (-1) 0 0 0 0 0 0 0 0 0,
  m 0 20 1 0 0 (-3) 0 0 0 0 0 0 0 0 0 0,
  m 0 20 2 0 2 (-6) 1 0 0 0 0 0 0 0 0 0,
  m 0 20 2 (-1) (-2) 2 (-1) 0 0 0 0 0 0 0 0 0,
  m 0 20 1 (-2) (-2) 2 (-1) 0 0 0 0 0 0 0 0 0,
  m 0 20 2 0 4 (-4) 2 0 0 0 0 0 0 0 0 0,
  m 20 0 2 0 (-1) (-1) (-2) 0 0 (-1) 0 2 0 0 0 0,
  m 0 (-20) 4 1 2 0 2 0 0 0 0 0 0 0 0 0,
  m 0 20 4 (-1) 2 0 2 0 0 0 0 0 0 0 0 0,
  m 0 (-20) 4 (-1) (-2) (-2) (-2) 0 0 0 0 0 0 0 0 0,
  m 0 (-20) 3 0 4 (-2) 2 0 0 0 0 0 0 0 0 0,
  m 0 (-20) 3 0 2 1 2 0 0 0 0 0 0 0 0 0,
  m 0 20 3 0 (-2) 2 (-1) 0 0 0 0 0 0 0 0 0,
  m 0 (-20) 3 0 (-2) (-1) (-1) 0 0 0 0 0 0 0 0 0,
  m 0 20 2 2 (-2) (-4) (-2) 0 0 0 0 0 0 0 0 0,
  m 0 (-20) 2 1 0 (-4) 0 0 0 0 0 0 0 0 0 0,
  m 0 20 2 1 (-2) (-6) (-2) 0 0 0 0 0 0 0 0 0,
  m 0 20 2 0 2 (-3) 2 0 0 0 0 0 0 0 0 0,
  m 0 20 2 (-2) 2 2 2 0 0 0 0 0 0 0 0 0,
  m 0 (-20) 1 1 2 4 2 0 0 0 0 0 0 0 0 0,
  m 0 (-20) 1 1 (-2) (-3) (-2) 0 0 0 0 0 0 0 0 0,
  m 0 20 1 1 (-2) (-6) (-2) 0 0 0 0 0 0 0 0 0,
  m (-20) 0 1 0 3 0 3 0 0 0 0 0 0 0 0 0,
  m 20 0 1 0 1 1 1 0 0 1 0 0 0 0 0 0,
  m 20 0 1 0 (-1) 1 (-1) 0 0 1 0 0 0 0 0 0,
  m 0 20 1 0 (-1) 0 (-1) 0 (-3) 5 0 0 0 0 0 0,
  m 20 0 1 0 (-1) (-2) (-1) 0 0 0 0 0 0 0 0 0,
  m 0 20 1 0 (-2) (-2) (-2) 0 0 (-2) 0 3 0 0 0 0,
  m 0 (-20) 1 (-1) 2 1 2 0 0 0 0 0 0 0 0 0,
  m 0 20 1 (-1) (-2) 1 (-1) 0 0 0 0 0 0 0 0 0,
  m 0 20 0 3 (-2) (-2) (-2) 0 0 0 0 0 0 0 0 0,
  m 0 (-20) 0 0 4 2 2 0 0 0 0 0 0 0 0 0,
  m 0 20 0 0 2 (-2) 1 0 0 1 0 (-1) 0 0 0 0,
  m 0 20 0 0 2 (-2) 1 0 0 (-2) 0 0 0 0 0 0,
  m 0 (-20) 0 0 2 (-2) 1 0 0 (-3) 0 3 0 0 0 0,
  m 0 (-20) 0 0 2 (-2) 1 0 0 (-4) 4 0 0 0 0 0,
  m 0 (-20) 0 0 2 (-2) 1 0 (-5) 5 0 0 0 0 0 0,
  m 0 20 0 0 1 (-1) 1 0 1 (-3) 0 0 0 0 0 0,
  m 0 (-20) 0 0 1 (-1) 1 0 0 1 (-4) 0 0 0 0 0,
  m 20 0 0 0 1 (-1) 1 0 0 (-1) 0 1 (-3) 0 0 0,
  m 20 0 0 0 1 (-1) 1 0 0 (-1) 0 0 0 (-1) 0 0,
  m 0 (-20) 0 0 1 (-1) 1 0 0 (-4) 6 0 0 0 0 0,
  m 20 0 0 0 1 (-1) 1 0 (-5) 6 0 0 0 0 0 0,
  m 0 20 0 0 0 0 0 0 8 (-12) 0 0 0 0 0 (-2),
  m 0 (-20) 0 0 0 0 0 0 7 (-10) 0 0 0 0 0 (-1),
  m 20 0 0 0 0 0 0 0 7 (-11) 0 0 0 0 0 (-1),
  m (-20) 0 0 0 0 0 0 0 6 (-4) 0 0 0 0 0 1,
  m (-20) 0 0 0 0 0 0 0 6 (-6) 0 0 0 0 0 1,
  m (-20) 0 0 0 0 0 0 0 5 (-5) 0 0 0 0 0 1,
  m 0 (-20) 0 0 0 0 0 0 5 (-6) 0 0 0 0 0 (-1),
  m (-20) 0 0 0 0 0 0 0 4 (-2) 0 0 0 0 0 0,
  m 0 (-20) 0 0 0 0 0 0 4 (-5) 0 0 0 0 0 (-1),
  m 20 0 0 0 0 0 0 0 4 (-5) 0 0 0 0 0 (-2),
  m 0 (-20) 0 0 0 0 0 0 3 (-4) 0 0 0 0 0 1,
  m 20 0 0 0 0 0 0 0 3 (-4) 0 0 0 0 0 (-2),
  m (-20) 0 0 0 0 0 0 0 3 (-8) 0 0 0 0 0 (-2),
  m 0 20 0 0 0 0 0 0 2 (-5) 0 0 0 0 0 (-1),
  m 0 20 0 0 0 0 0 0 1 (-2) 0 0 0 0 0 (-1),
  m 0 20 0 0 0 0 0 0 1 (-4) 0 0 0 0 0 (-1),
  m 0 (-20) 0 0 0 0 0 0 0 9 (-17) 0 0 0 0 (-2),
  m (-20) 0 0 0 0 0 0 0 0 7 (-7) 0 0 0 0 2,
  m (-20) 0 0 0 0 0 0 0 0 7 (-8) 0 0 0 0 2,
  m (-20) 0 0 0 0 0 0 0 0 7 (-9) 0 0 0 0 2,
  m (-20) 0 0 0 0 0 0 0 0 5 (-6) 0 0 0 0 2,
  m 20 0 0 0 0 0 0 0 0 5 (-10) 0 0 0 0 (-2),
  m 0 20 0 0 0 0 0 0 0 4 0 (-4) 0 0 0 2,
  m 0 (-20) 0 0 0 0 0 0 0 4 (-6) 0 0 0 0 (-2),
  m 0 (-20) 0 0 0 0 0 0 0 4 (-7) 0 0 0 0 (-1),
  m 0 (-20) 0 0 0 0 0 0 0 4 (-8) 3 0 0 0 1,
  m 0 20 0 0 0 0 0 0 0 4 (-8) 3 0 0 0 (-1),
  m 20 0 0 0 0 0 0 0 0 4 (-8) 1 5 0 0 2,
  m 20 0 0 0 0 0 0 0 0 3 0 0 0 0 0 2,
  m 0 20 0 0 0 0 0 0 0 3 (-8) 3 0 0 0 (-2),
  m 20 0 0 0 0 0 0 0 0 2 0 0 (-2) 0 0 1,
  m 0 (-20) 0 0 0 0 0 0 0 2 0 (-5) 0 0 0 (-2),
  m 0 (-20) 0 0 0 0 0 0 0 2 (-4) 0 0 0 0 1,
  m 20 0 0 0 0 0 0 0 0 2 (-7) 0 0 0 0 (-2),
  m 20 0 0 0 0 0 0 0 0 1 0 1 0 0 0 1,
  m 0 20 0 0 0 0 0 0 0 1 0 0 0 0 0 (-1),
  m 20 0 0 0 0 0 0 0 0 1 0 (-1) 0 0 0 (-1),
  m 20 0 0 0 0 0 0 0 0 1 0 (-2) 5 0 0 2,
  m 0 20 0 0 0 0 0 0 0 1 0 (-2) 0 0 0 (-2),
  m 0 (-20) 0 0 0 0 0 0 0 1 0 (-5) 0 0 0 (-2),
  m 10 (-10) 0 0 0 0 0 0 0 2 1 0 0 0 0 2,
  m 0 (-20) 1 0 4 0 1 0 0 0 0 0 0 0 0 0,
  m 0 20 4 0 (-2) 0 (-1) 0 0 0 0 0 0 0 0 0,
  m 0 (-20) 0 1 0 4 1 0 0 0 0 0 0 0 0 0,
  m 0 20 2 0 0 4 1 0 0 0 0 0 0 0 0 0,
  m 0 20 0 0 0 0 1 0 0 7 (-13) 0 0 0 0 0,
  m 0 (-20) 2 1 0 2 1 0 0 0 0 0 0 0 0 0,
  m 0 20 1 (-1) 0 4 1 0 0 0 0 0 0 0 0 0,
  m 20 0 0 0 2 (-2) 1 0 (-8) 11 0 0 0 0 0 0,
  m 0 20 1 0 2 (-6) 1 0 0 0 0 0 0 0 0 0,
  m 0 20 0 0 2 (-2) 2 0 0 (-2) 0 2 0 0 0 0,
  m 0 (-20) 1 2 2 0 1 0 0 0 0 0 0 0 0 0,
  m 0 20 3 0 (-2) (-6) (-1) 0 0 0 0 0 0 0 0 0,
  m 0 20 2 0 0 (-6) (-1) 0 0 0 0 0 0 0 0 0,
  m 0 20 1 (-1) 2 4 1 0 0 0 0 0 0 0 0 0,
  m 0 (-20) 2 1 2 2 1 0 0 0 0 0 0 0 0 0,
  m (-20) 0 0 0 1 1 2 0 0 1 0 0 0 0 0 0,
  m 0 20 2 (-1) (-2) (-2) (-1) 0 0 0 0 0 0 0 0 0,
  m 0 (-20) 0 1 (-2) 4 (-1) 0 0 0 0 0 0 0 0 0,
  m 0 20 2 0 2 4 1 0 0 0 0 0 0 0 0 0,
  m 0 (-20) 1 (-1) (-2) (-4) (-1) 0 0 0 0 0 0 0 0 0,
  m 0 (-20) 1 0 (-4) (-2) (-1) 0 0 0 0 0 0 0 0 0,
  m 0 20 1 (-2) 2 2 1 0 0 0 0 0 0 0 0 0,
  m 0 20 1 0 (-2) (-6) (-1) 0 0 0 0 0 0 0 0 0,
  m 0 (-20) 3 1 2 (-2) 1 0 0 0 0 0 0 0 0 0,
  m 0 (-20) 2 (-2) 0 (-2) (-2) 0 0 0 0 0 0 0 0 0,
  m 0 20 2 (-1) 0 2 1 0 0 0 0 0 0 0 0 0,
  m 0 20 3 0 0 0 2 0 0 0 0 0 0 0 0 0,
  m 0 (-20) 1 (-1) 2 (-3) 1 0 0 0 0 0 0 0 0 0,
  m 0 20 0 0 1 (-1) 2 0 (-5) 7 0 0 0 0 0 0,
  m 0 (-20) 2 1 0 (-2) (-2) 0 0 0 0 0 0 0 0 0,
  m (-20) 0 0 0 1 (-1) 2 0 0 (-1) 0 (-1) 0 0 0 0,
  m 0 (-20) 2 1 (-2) 0 0 0 0 0 0 0 0 0 0 0,
  m 0 20 1 0 (-2) 0 2 0 0 0 0 0 0 0 0 0,
  m 0 (-20) 1 (-1) 0 0 (-2) 0 0 0 0 0 0 0 0 0,
  m 0 (-20) 0 2 0 0 2 0 0 0 0 0 0 0 0 0,
  m (-20) 0 0 0 0 0 1 0 3 (-4) 0 0 0 0 0 0,
  m 0 (-20) 0 0 0 0 1 0 0 2 (-2) 0 0 0 0 0,
  m 0 20 0 0 0 0 1 0 0 2 0 (-2) 0 0 0 0,
  m 0 (-20) 0 1 2 (-4) 2 0 0 0 0 0 0 0 0 0,
  m 0 20 0 0 1 (-1) 2 0 (-8) 12 0 0 0 0 0 0,
  m 0 20 1 1 (-2) 2 (-2) 0 0 0 0 0 0 0 0 0,
  m 0 (-19) 0 1 2 (-2) 0 0 0 0 0 0 0 0 0 0,
  m 0 17 0 1 (-2) 2 (-3) 0 0 0 0 0 0 0 0 0,
  m 0 11 1 0 (-2) 0 (-3) 0 0 0 0 0 0 0 0 0,
  m 0 (-10) 1 1 (-2) (-2) 0 0 0 0 0 0 0 0 0 0,
  m 10 0 0 0 0 0 1 0 0 (-1) 0 2 0 0 0 0,
  m 0 (-10) 0 1 (-2) (-2) 0 0 0 0 0 0 0 0 0 0,
  m 0 10 1 0 0 0 (-1) 0 (-10) 3 0 0 0 0 0 0,
  m 0 (-10) 1 0 0 0 1 0 (-10) 3 0 0 0 0 0 0,
  m 0 (-10) 1 0 (-2) (-4) 0 0 0 0 0 0 0 0 0 0,
  m 0 (-10) 2 (-1) 0 2 0 0 0 0 0 0 0 0 0 0,
  m 0 (-10) 0 2 0 0 (-2) 0 0 0 0 0 0 0 0 0,
  m 0 (-10) 1 0 0 (-6) 0 0 0 0 0 0 0 0 0 0,
  m 0 10 0 1 4 (-4) 2 0 0 0 0 0 0 0 0 0,
  m 0 (-10) 2 0 0 (-6) 0 0 0 0 0 0 0 0 0 0,
  m (-10) 0 0 0 0 0 2 0 0 0 0 1 0 0 0 0,
  m 0 (-10) 3 0 0 (-4) 0 0 0 0 0 0 0 0 0 0,
  m 0 (-10) 2 (-1) (-2) 0 1 0 0 0 0 0 0 0 0 0,
  m 0 10 2 2 0 (-2) (-1) 0 0 0 0 0 0 0 0 0,
  m 0 (-10) 0 0 0 3 2 0 0 0 0 0 0 0 0 0,
  m 0 (-10) 3 (-1) 0 0 0 0 0 0 0 0 0 0 0 0,
  m 10 0 0 0 2 0 2 0 2 (-3) 0 0 0 0 0 0,
  m 10 0 0 0 2 0 2 0 (-2) 3 0 0 0 0 0 0,
  m 0 10 0 0 2 0 2 0 2 (-2) 0 0 0 0 0 0,
  m 0 (-10) 0 0 2 0 2 0 (-2) 2 0 0 0 0 0 0,
  m 0 (-10) 2 (-1) (-2) 0 0 0 0 0 0 0 0 0 0 0,
  m 0 10 2 0 (-2) (-2) (-2) 0 0 (-2) 0 2 0 0 0 0,
  m 0 10 1 2 2 (-4) 1 0 0 0 0 0 0 0 0 0]

/-- Terms of degree 0 in t. -/
def tableY0 : List Term := tableY0_0 ++ tableY0_1 ++ tableY0_2 ++ tableY0_3 ++ tableY0_4

private def tableY1_0 : List Term := [
  m 15304179 85332 0 0 0 0 1 0 0 0 0 0 0 0 0 0,
  m 1171449 (-29091) 0 0 2 (-2) 2 0 0 0 0 0 0 0 0 0,
  m 202468 (-5126) 0 0 2 0 2 0 0 0 0 0 0 0 0 0,
  m (-183732) 4800 0 0 0 0 2 0 0 0 0 0 0 0 0 0,
  m (-131221) (-2893) 0 1 0 0 0 0 0 0 0 0 0 0 0 0,
  m (-63254) 78 1 0 0 0 0 0 0 0 0 0 0 0 0 0,
  m 45968 (-6730) 0 1 2 (-2) 2 0 0 0 0 0 0 0 0 0,
  m 34450 141 0 0 2 0 1 0 0 0 0 0 0 0 0 0,
  m 26814 (-706) 1 0 2 0 2 0 0 0 0 0 0 0 0 0,
  m 19206 2983 0 1 (-2) 2 (-2) 0 0 0 0 0 0 0 0 0,
  m 13964 15 1 0 0 (-2) 0 0 0 0 0 0 0 0 0 0,
  m (-11394) (-104) 0 0 2 (-2) 1 0 0 0 0 0 0 0 0 0,
  m 10981 320 1 0 (-2) 0 (-2) 0 0 0 0 0 0 0 0 0,
  m (-5637) 13 0 0 0 2 0 0 0 0 0 0 0 0 0 0,
  m (-5617) (-1) 1 0 0 0 1 0 0 0 0 0 0 0 0 0,
  m (-5305) (-124) 1 0 (-2) (-2) (-2) 0 0 0 0 0 0 0 0 0,
  m (-5160) 16 1 0 0 0 (-1) 0 0 0 0 0 0 0 0 0,
  m 4591 (-12) 1 0 2 0 1 0 0 0 0 0 0 0 0 0,
  m (-4245) 2 2 0 0 (-2) 0 0 0 0 0 0 0 0 0 0,
  m 4082 (-102) 2 0 (-2) 0 (-1) 0 0 0 0 0 0 0 0 0,
  m 3430 (-125) 0 0 2 2 2 0 0 0 0 0 0 0 0 0,
  m 2889 0 0 2 (-2) 2 (-2) 0 0 0 0 0 0 0 0 0,
  m 2761 (-122) 2 0 2 0 2 0 0 0 0 0 0 0 0 0,
  m (-2543) 100 1 0 2 (-2) 2 0 0 0 0 0 0 0 0 0,
  m (-2601) 7 2 0 0 0 0 0 0 0 0 0 0 0 0 0,
  m (-2302) 6 0 0 2 0 0 0 0 0 0 0 0 0 0 0,
  m 1937 (-1) 0 0 2 (-2) 0 0 0 0 0 0 0 0 0 0,
  m 1405 (-419) 0 2 2 (-2) 2 0 0 0 0 0 0 0 0 0,
  m 1818 (-1) 1 0 (-2) 0 (-1) 0 0 0 0 0 0 0 0 0,
  m (-1486) (-9) 0 2 0 0 0 0 0 0 0 0 0 0 0 0,
  m 1349 (-1) 1 0 0 (-2) (-1) 0 0 0 0 0 0 0 0 0,
  m 1244 (-27) 0 1 0 0 1 0 0 0 0 0 0 0 0 0,
  m 1146 3 1 0 0 (-2) 1 0 0 0 0 0 0 0 0 0,
  m (-1133) (-6) 0 1 0 0 (-1) 0 0 0 0 0 0 0 0 0,
  m (-981) 1 2 0 (-2) 0 0 0 0 0 0 0 0 0 0 0,
  m (-908) (-2) 1 0 (-2) (-2) (-1) 0 0 0 0 0 0 0 0 0,
  m 274 (-456) 0 0 1 (-1) 1 0 0 (-1) 0 (-2) 5 0 0 0,
  m 684 (-4) 1 0 2 2 2 0 0 0 0 0 0 0 0 0,
  m (-673) 1 0 1 2 0 2 0 0 0 0 0 0 0 0 0,
  m 654 1 1 1 0 (-2) 0 0 0 0 0 0 0 0 0 0,
  m (-635) (-1) 0 1 (-2) 0 (-2) 0 0 0 0 0 0 0 0 0,
  m 590 (-2) 0 0 2 2 1 0 0 0 0 0 0 0 0 0,
  m (-585) 2 1 0 0 2 0 0 0 0 0 0 0 0 0 0,
  m (-573) 1 2 0 2 (-2) 2 0 0 0 0 0 0 0 0 0,
  m 560 0 0 0 0 2 1 0 0 0 0 0 0 0 0 0,
  m (-516) 0 1 0 2 (-2) 1 0 0 0 0 0 0 0 0 0,
  m (-514) 1 2 0 0 (-2) (-1) 0 0 0 0 0 0 0 0 0,
  m 476 (-2) 2 0 2 0 1 0 0 0 0 0 0 0 0 0,
  m (-440) 2 0 0 0 2 (-1) 0 0 0 0 0 0 0 0 0,
  m (-422) 0 0 1 (-2) 2 (-1) 0 0 0 0 0 0 0 0 0,
  m (-420) 1 1 (-1) 0 0 0 0 0 0 0 0 0 0 0 0,
  m 358 31 1 0 0 (-1) 0 0 0 0 0 0 0 0 0 0,
  m 387 1 0 1 0 (-2) 0 0 0 0 0 0 0 0 0 0,
  m 376 0 0 0 0 1 0 0 0 0 0 0 0 0 0 0,
  m (-362) 0 2 0 0 (-2) 1 0 0 0 0 0 0 0 0 0,
  m (-361) 0 1 0 (-2) 0 0 0 0 0 0 0 0 0 0 0,
  m (-128) (-214) 0 0 0 0 0 0 0 0 0 2 (-5) 0 0 (-1),
  m (-318) 0 0 1 2 (-2) 1 0 0 0 0 0 0 0 0 0,
  m 301 0 1 1 0 0 0 0 0 0 0 0 0 0 0 0,
  m (-297) 1 1 0 2 0 0 0 0 0 0 0 0 0 0 0,
  m 291 0 1 (-1) 0 (-1) 0 0 0 0 0 0 0 0 0 0,
  m (-273) 0 2 0 (-2) 0 (-2) 0 0 0 0 0 0 0 0 0,
  m 258 (-1) 3 0 2 0 2 0 0 0 0 0 0 0 0 0,
  m 256 (-1) 1 (-1) 2 0 2 0 0 0 0 0 0 0 0 0,
  m (-251) (-1) 1 1 (-2) (-2) (-2) 0 0 0 0 0 0 0 0 0,
  m (-235) (-1) 0 1 (-2) (-2) (-2) 0 0 0 0 0 0 0 0 0,
  m (-221) 1 1 1 2 0 2 0 0 0 0 0 0 0 0 0,
  m (-204) 1 2 0 0 0 (-1) 0 0 0 0 0 0 0 0 0,
  m (-194) 0 2 0 0 0 1 0 0 0 0 0 0 0 0 0,
  m 41 (-143) 0 0 0 0 0 0 0 4 (-8) 3 0 0 0 0,
  m (-184) 0 0 0 0 0 0 0 3 (-5) 0 0 0 0 0 (-2),
  m (-177) 1 1 0 (-2) 2 (-1) 0 0 0 0 0 0 0 0 0,
  m 0 177 0 1 (-1) 1 (-1) 0 0 0 0 0 0 0 0 0,
  m 176 0 1 0 0 0 2 0 0 0 0 0 0 0 0 0,
  m (-107) (-53) 0 0 1 (-1) 1 0 (-8) 12 0 0 0 0 0 0,
  m (-148) 0 0 0 2 1 2 0 0 0 0 0 0 0 0 0,
  m (-140) 1 3 0 0 0 0 0 0 0 0 0 0 0 0 0,
  m (-135) (-1) 1 0 (-2) (-4) (-2) 0 0 0 0 0 0 0 0 0,
  m (-132) 0 0 0 0 0 0 0 1 (-1) 0 0 0 0 0 0,
  m (-128) 0 0 0 0 0 0 0 0 8 (-16) 4 5 0 0 0,
  m 124 0 1 0 0 0 (-2) 0 0 0 0 0 0 0 0 0,
  m 123 0 2 0 (-2) (-2) (-2) 0 0 0 0 0 0 0 0 0,
  m 119 0 1 0 0 (-4) 0 0 0 0 0 0 0 0 0 0,
  m 118 (-1) 1 0 2 2 1 0 0 0 0 0 0 0 0 0,
  m 117 0 1 (-1) 0 (-1) (-1) 0 0 0 0 0 0 0 0 0,
  m (-115) 0 1 1 2 (-2) 2 0 0 0 0 0 0 0 0 0,
  m 114 0 2 0 0 (-4) 0 0 0 0 0 0 0 0 0 0,
  m (-114) 0 0 2 (-2) 2 (-1) 0 0 0 0 0 0 0 0 0,
  m 109 3 0 0 0 0 0 0 0 1 0 (-1) 0 0 0 0,
  m (-108) 0 2 0 (-2) (-4) (-2) 0 0 0 0 0 0 0 0 0,
  m 104 0 0 0 0 0 0 0 0 0 0 2 0 0 0 2,
  m 102 0 1 0 (-4) 0 (-2) 0 0 0 0 0 0 0 0 0,
  m 98 (-1) 2 0 2 2 2 0 0 0 0 0 0 0 0 0,
  m 91 2 1 0 0 (-1) (-1) 0 0 0 0 0 0 0 0 0,
  m 0 93 1 0 (-1) 0 (-1) 0 0 0 0 0 0 0 0 0,
  m (-91) 0 2 0 2 (-2) 1 0 0 0 0 0 0 0 0 0,
  m (-90) 0 2 1 0 (-2) 0 0 0 0 0 0 0 0 0 0,
  m 86 0 1 0 0 2 1 0 0 0 0 0 0 0 0 0,
  m (-84) 0 1 (-1) 0 (-2) 0 0 0 0 0 0 0 0 0 0,
  m (-83) 0 3 0 2 (-2) 2 0 0 0 0 0 0 0 0 0,
  m (-82) 0 0 0 4 (-2) 2 0 0 0 0 0 0 0 0 0,
  m 41 39 0 0 0 0 1 0 0 (-1) 2 0 0 0 0 0,
  m 40 (-38) 0 0 0 0 0 0 0 1 (-2) 0 0 0 0 0,
  m 78 0 0 1 (-2) 2 0 0 0 0 0 0 0 0 0 0,
  m 74 0 0 0 2 (-2) (-1) 0 0 0 0 0 0 0 0 0,
  m (-73) 0 0 1 2 0 1 0 0 0 0 0 0 0 0 0,
  m 68 0 1 0 2 (-2) 0 0 0 0 0 0 0 0 0 0,
  m 66 0 1 1 0 (-2) (-1) 0 0 0 0 0 0 0 0 0,
  m (-64) 0 2 0 (-2) 0 1 0 0 0 0 0 0 0 0 0,
  m (-63) 0 0 1 0 0 2 0 0 0 0 0 0 0 0 0,
  m 63 0 0 0 2 (-1) 2 0 0 0 0 0 0 0 0 0,
  m 62 0 0 0 2 4 2 0 0 0 0 0 0 0 0 0,
  m 60 0 0 1 0 2 0 0 0 0 0 0 0 0 0 0,
  m (-59) 0 0 0 2 0 (-1) 0 0 0 0 0 0 0 0 0,
  m (-59) 0 0 1 (-2) 0 (-1) 0 0 0 0 0 0 0 0 0,
  m 59 0 0 1 2 (-2) 0 0 0 0 0 0 0 0 0 0,
  m 57 0 1 0 (-2) (-2) 0 0 0 0 0 0 0 0 0 0,
  m 38 (-19) 0 0 0 0 0 0 8 (-13) 0 0 0 0 0 (-1),
  m (-1) (-55) 0 0 0 0 0 0 2 (-3) 0 0 0 0 0 0,
  m 44 (-11) 0 0 0 0 0 0 0 0 0 2 (-5) 0 0 0,
  m 53 0 0 0 0 0 0 0 2 (-2) 0 0 0 0 0 0,
  m (-53) 0 1 (-1) 0 (-1) (-2) 0 0 0 0 0 0 0 0 0,
  m 52 0 1 (-1) 2 2 2 0 0 0 0 0 0 0 0 0,
  m (-52) 0 2 0 0 2 0 0 0 0 0 0 0 0 0 0,
  m 53 0 0 1 0 0 (-2) 0 0 0 0 0 0 0 0 0,
  m 52 0 1 1 0 (-2) 1 0 0 0 0 0 0 0 0 0,
  m 51 0 1 0 (-2) 2 0 0 0 0 0 0 0 0 0 0,
  m 51 0 1 (-1) (-2) (-2) (-2) 0 0 0 0 0 0 0 0 0,
  m (-21) (-30) 0 0 0 0 0 0 8 (-13) 0 0 0 0 0 0,
  m (-50) 0 0 1 0 1 0 0 0 0 0 0 0 0 0 0,
  m (-11) 37 0 0 0 0 0 0 0 2 (-8) 3 0 0 0 (-2),
  m (-11) 37 0 0 0 0 0 0 0 6 (-8) 3 0 0 0 2,
  m (-48) 0 0 1 2 2 2 0 0 0 0 0 0 0 0 0,
  m (-46) (-1) 0 0 0 0 0 0 0 3 0 (-1) 0 0 0 2,
  m (-47) 0 1 (-1) 0 0 1 0 0 0 0 0 0 0 0 0,
  m (-3) 43 0 0 1 (-1) 1 0 0 (-1) 0 2 (-5) 0 0 0,
  m 45 0 3 0 2 0 1 0 0 0 0 0 0 0 0 0,
  m (-44) 0 0 0 0 4 0 0 0 0 0 0 0 0 0 0,
  m (-44) 0 1 0 0 2 (-1) 0 0 0 0 0 0 0 0 0,
  m (-44) 0 1 (-1) 0 2 0 0 0 0 0 0 0 0 0 0,
  m 43 0 2 (-1) 2 0 2 0 0 0 0 0 0 0 0 0,
  m 44 0 0 0 0 0 0 0 4 (-6) 0 0 0 0 0 (-2),
  m 42 0 0 0 0 2 2 0 0 0 0 0 0 0 0 0,
  m (-42) 0 1 1 (-2) (-2) (-1) 0 0 0 0 0 0 0 0 0,
  m 41 0 1 (-1) (-2) 0 (-2) 0 0 0 0 0 0 0 0 0,
  m (-41) 0 0 0 0 0 0 0 2 (-4) 0 0 0 0 0 (-2),
  m 2 39 0 0 2 (-2) 1 0 (-5) 6 0 0 0 0 0 0,
  m 40 0 1 0 2 (-4) 1 0 0 0 0 0 0 0 0 0,
  m (-40) 0 0 1 (-2) (-2) (-1) 0 0 0 0 0 0 0 0 0,
  m (-39) 0 2 0 0 (-2) 0 0 0 (-2) 0 2 0 0 0 0,
  m 39 0 0 3 2 (-2) 2 0 0 0 0 0 0 0 0 0,
  m 15 (-24) 0 0 0 0 0 0 0 1 0 (-2) 0 0 0 0,
  m (-37) (-1) 0 0 0 0 0 0 0 2 0 (-2) 0 0 0 0,
  m 37 0 1 (-1) 2 0 1 0 0 0 0 0 0 0 0 0,
  m (-37) 0 0 0 2 2 0 0 0 0 0 0 0 0 0 0,
  m (-37) 0 2 1 2 0 2 0 0 0 0 0 0 0 0 0,
  m (-31) 6 2 0 0 (-2) 0 0 0 (-2) 0 3 0 0 0 0,
  m (-35) 0 1 0 0 (-2) (-2) 0 0 0 0 0 0 0 0 0,
  m 35 0 0 0 0 1 1 0 0 0 0 0 0 0 0 0,
  m (-7) (-27) 0 0 0 0 1 0 0 (-4) 8 (-3) 0 0 0 0,
  m (-33) 1 0 0 0 0 0 0 2 0 0 0 0 0 0 2,
  m (-33) 0 2 (-1) 0 0 0 0 0 0 0 0 0 0 0 0,
  m 7 (-26) 0 0 0 0 1 0 0 4 (-8) 3 0 0 0 0,
  m 33 0 0 0 0 0 0 0 0 2 (-2) 0 0 0 0 0,
  m 0 (-32) 1 0 (-1) 0 (-2) 0 0 0 0 0 0 0 0 0,
  m 32 0 1 1 0 0 1 0 0 0 0 0 0 0 0 0,
  m (-32) 0 1 1 2 0 1 0 0 0 0 0 0 0 0 0,
  m 32 0 1 0 (-2) 2 (-2) 0 0 0 0 0 0 0 0 0,
  m (-24) (-7) 0 0 1 (-1) 1 0 0 0 (-2) 0 0 0 0 0,
  m 24 7 0 0 1 (-1) 0 0 0 0 (-2) 0 0 0 0 0,
  m 30 0 0 0 0 0 0 0 1 1 0 0 0 0 0 2,
  m 8 (-22) 0 0 0 0 0 0 0 0 0 1 0 0 0 0,
  m (-30) 0 1 0 2 1 2 0 0 0 0 0 0 0 0 0,
  m (-30) 0 2 0 2 0 0 0 0 0 0 0 0 0 0 0,
  m 30 0 0 1 0 (-2) 1 0 0 0 0 0 0 0 0 0,
  m 30 0 1 0 2 (-1) 2 0 0 0 0 0 0 0 0 0,
  m 0 (-29) 0 0 0 0 0 0 3 (-4) 0 0 0 0 0 0,
  m 0 (-29) 1 0 (-1) 0 0 0 0 0 0 0 0 0 0 0,
  m 20 (-9) 1 0 0 0 0 0 (-18) 16 0 0 0 0 0 0,
  m 29 0 1 0 0 1 0 0 0 0 0 0 0 0 0 0,
  m (-5) (-24) 0 0 0 0 0 0 0 0 0 2 0 0 0 1,
  m 29 0 0 0 0 1 (-1) 0 0 0 0 0 0 0 0 0,
  m (-27) 0 1 0 0 (-2) 2 0 0 0 0 0 0 0 0 0,
  m (-19) (-8) 1 0 0 0 0 0 (-10) 3 0 0 0 0 0 0,
  m (-27) 0 1 (-1) 0 0 (-1) 0 0 0 0 0 0 0 0 0,
  m 25 0 2 1 0 0 0 0 0 0 0 0 0 0 0 0,
  m 25 0 2 0 0 (-2) (-1) 0 0 (-2) 0 2 0 0 0 0,
  m (-25) 0 0 0 2 1 1 0 0 0 0 0 0 0 0 0,
  m 25 0 1 2 0 (-2) 0 0 0 0 0 0 0 0 0 0,
  m (-25) 0 0 3 0 0 0 0 0 0 0 0 0 0 0 0,
  m (-1) 23 0 0 0 0 0 0 5 (-8) 0 0 0 0 0 (-2),
  m (-23) 0 1 0 (-2) (-4) (-1) 0 0 0 0 0 0 0 0 0,
  m 23 0 0 0 0 0 0 0 0 1 0 1 0 0 0 2,
  m 23 0 4 0 2 0 2 0 0 0 0 0 0 0 0 0,
  m (-15) (-7) 0 0 1 (-1) 1 0 0 (-1) 0 0 (-1) 0 0 0,
  m (-23) 0 1 0 (-2) 0 1 0 0 0 0 0 0 0 0 0,
  m (-22) 0 2 1 2 (-2) 2 0 0 0 0 0 0 0 0 0,
  m 22 0 0 1 2 1 2 0 0 0 0 0 0 0 0 0,
  m (-22) 0 1 1 2 (-2) 1 0 0 0 0 0 0 0 0 0,
  m (-22) 0 1 0 4 (-2) 2 0 0 0 0 0 0 0 0 0]

private def tableY1_1 : List Term := [
  m 4 (-17) 0 0 1 (-1) 1 0 0 (-1) 0 (-1) 0 0 0 0,
  m (-1) (-21) 0 0 2 (-2) 0 0 (-5) 6 0 0 0 0 0 0,
  m 8 (-14) 0 0 0 0 0 0 0 2 (-4) 0 0 0 0 0,
  m (-1) 19 0 0 0 0 0 0 0 0 0 2 (-5) 0 0 1,
  m 21 0 2 0 (-2) (-2) (-1) 0 0 0 0 0 0 0 0 0,
  m (-20) 0 1 0 (-2) 1 (-1) 0 0 0 0 0 0 0 0 0,
  m (-20) 0 2 (-2) 0 (-2) 0 0 0 0 0 0 0 0 0 0,
  m (-4) (-16) 0 0 0 0 0 0 8 (-13) 0 0 0 0 0 (-2),
  m 19 0 0 2 0 (-2) 0 0 0 0 0 0 0 0 0 0,
  m 19 0 1 1 0 0 (-1) 0 0 0 0 0 0 0 0 0,
  m (-19) 0 2 0 (-2) (-4) (-1) 0 0 0 0 0 0 0 0 0,
  m 18 0 0 0 0 0 0 0 5 (-7) 0 0 0 0 0 (-2),
  m (-18) 0 0 1 0 2 1 0 0 0 0 0 0 0 0 0,
  m 18 0 1 0 (-4) 0 (-1) 0 0 0 0 0 0 0 0 0,
  m 17 0 2 0 2 2 1 0 0 0 0 0 0 0 0 0,
  m (-12) 6 1 0 2 0 2 0 0 1 0 0 0 0 0 0,
  m 13 (-4) 0 0 0 0 0 0 3 (-5) 0 0 0 0 0 0,
  m (-11) 6 1 0 (-2) 0 (-2) 0 0 4 (-8) 3 0 0 0 0,
  m 17 0 0 0 2 (-3) 2 0 0 0 0 0 0 0 0 0,
  m (-17) 0 0 0 4 0 2 0 0 0 0 0 0 0 0 0,
  m 16 0 0 0 0 0 0 0 0 4 0 (-2) 0 0 0 2,
  m (-17) 0 1 0 0 (-4) (-1) 0 0 0 0 0 0 0 0 0,
  m (-14) 2 1 0 0 (-1) 1 0 0 0 0 0 0 0 0 0,
  m 14 3 0 0 0 0 0 0 0 2 0 (-1) 0 0 0 2,
  m 0 15 0 0 0 0 0 0 2 (-1) 0 0 0 0 0 2,
  m (-15) 0 1 1 (-2) (-4) (-2) 0 0 0 0 0 0 0 0 0,
  m (-14) 1 0 0 0 0 0 0 0 2 0 1 0 0 0 2,
  m 16 0 2 0 0 (-2) (-2) 0 0 0 0 0 0 0 0 0,
  m (-6) 10 0 0 0 0 0 0 8 (-11) 0 0 0 0 0 (-2),
  m 5 10 0 0 0 0 0 0 0 8 (-16) 4 5 0 0 (-2),
  m 2 13 0 0 1 (-1) 1 0 0 (-1) 0 2 0 0 0 0,
  m (-11) 4 0 0 0 0 0 0 0 8 (-16) 4 5 0 0 2,
  m (-12) (-2) 0 0 1 (-1) 1 0 (-5) 7 0 0 0 0 0 0,
  m (-5) (-10) 0 0 0 0 0 0 0 0 0 0 2 0 0 1,
  m 14 0 1 0 2 4 2 0 0 0 0 0 0 0 0 0,
  m (-9) 5 1 0 0 (-2) 0 0 19 (-21) 3 0 0 0 0 0,
  m 0 14 0 0 1 0 1 0 0 0 0 0 0 0 0 0,
  m 14 0 3 0 0 (-4) 0 0 0 0 0 0 0 0 0 0,
  m (-14) 0 1 1 (-2) 0 (-2) 0 0 0 0 0 0 0 0 0,
  m 4 10 0 0 1 (-1) 1 0 0 (-1) 0 0 2 0 0 0,
  m (-6) 8 0 0 0 0 0 0 0 3 0 (-2) 0 0 0 2,
  m 5 9 0 0 0 0 0 0 8 (-15) 0 0 0 0 0 (-2),
  m (-14) 0 0 1 0 (-2) (-1) 0 0 0 0 0 0 0 0 0,
  m 8 6 0 0 0 0 0 0 0 1 2 0 0 0 0 2,
  m 14 0 0 0 0 4 1 0 0 0 0 0 0 0 0 0,
  m 14 0 0 0 2 (-4) 1 0 0 0 0 0 0 0 0 0,
  m 13 0 1 1 0 (-4) 0 0 0 0 0 0 0 0 0 0,
  m (-7) 6 0 0 0 0 0 0 0 3 (-2) 0 0 0 0 2,
  m 11 (-2) 0 0 0 0 0 0 0 0 0 3 0 0 0 2,
  m (-13) 0 3 0 2 (-2) 1 0 0 0 0 0 0 0 0 0,
  m (-13) 0 0 0 0 0 0 0 0 4 (-2) 0 0 0 0 2,
  m (-13) 0 1 1 2 2 2 0 0 0 0 0 0 0 0 0,
  m (-13) 0 0 0 4 (-2) 1 0 0 0 0 0 0 0 0 0,
  m (-12) 0 2 0 0 (-2) 0 0 (-3) 3 0 0 0 0 0 0,
  m 12 0 3 0 2 2 2 0 0 0 0 0 0 0 0 0,
  m 12 0 0 0 0 0 0 0 0 0 0 0 2 0 0 2,
  m (-12) 0 2 1 0 (-2) (-1) 0 0 0 0 0 0 0 0 0,
  m (-2) (-9) 0 0 0 0 0 0 4 (-6) 0 0 0 0 0 (-1),
  m 2 (-9) 0 0 0 0 0 0 1 (-1) 0 0 0 0 0 (-1),
  m 0 (-12) 1 0 0 (-1) 0 0 (-3) 4 0 0 0 0 0 0,
  m (-11) 0 0 2 (-2) (-2) (-2) 0 0 0 0 0 0 0 0 0,
  m 11 0 2 0 0 (-4) (-1) 0 0 0 0 0 0 0 0 0,
  m 7 (-4) 0 0 0 0 0 0 0 3 (-4) 0 0 0 0 0,
  m 11 0 0 0 2 4 1 0 0 0 0 0 0 0 0 0,
  m 11 0 0 0 0 2 (-2) 0 0 0 0 0 0 0 0 0,
  m (-11) 0 3 0 0 0 (-1) 0 0 0 0 0 0 0 0 0,
  m 10 0 0 0 0 0 0 0 0 1 0 (-3) 0 0 0 (-2),
  m (-10) 0 0 0 2 (-2) 1 0 (-3) 3 0 0 0 0 0 0,
  m 10 0 0 0 0 0 0 0 6 (-8) 0 0 0 0 0 (-2),
  m 10 0 2 1 0 (-4) 0 0 0 0 0 0 0 0 0 0,
  m 10 0 0 0 1 (-1) 1 0 0 3 (-8) 3 0 0 0 0,
  m 0 10 0 0 0 0 0 0 3 (-2) 0 0 0 0 0 2,
  m 0 10 0 0 0 0 0 0 2 (-5) 0 0 0 0 0 (-2),
  m (-10) 0 4 0 2 (-2) 2 0 0 0 0 0 0 0 0 0,
  m 10 0 2 0 0 2 1 0 0 0 0 0 0 0 0 0,
  m (-10) 0 1 (-1) 0 (-2) (-1) 0 0 0 0 0 0 0 0 0,
  m 10 0 0 0 0 0 0 0 1 (-3) 0 0 0 0 0 (-2)]

/-- Terms of degree 1 in t. -/
def tableY1 : List Term := tableY1_0 ++ tableY1_1

private def tableY2_0 : List Term := [
  m 12056 (-230127) 0 0 0 0 1 0 0 0 0 0 0 0 0 0,
  m (-103) (-14327) 0 0 2 (-2) 2 0 0 0 0 0 0 0 0 0,
  m (-28) (-2446) 0 0 2 0 2 0 0 0 0 0 0 0 0 0,
  m 24 2241 0 0 0 0 2 0 0 0 0 0 0 0 0 0,
  m (-119) (-561) 0 1 2 (-2) 2 0 0 0 0 0 0 0 0 0,
  m 357 (-183) 0 1 0 0 0 0 0 0 0 0 0 0 0 0,
  m 24 (-502) 0 0 2 0 1 0 0 0 0 0 0 0 0 0,
  m (-4) (-323) 1 0 2 0 2 0 0 0 0 0 0 0 0 0,
  m (-48) 240 0 1 (-2) 2 (-2) 0 0 0 0 0 0 0 0 0,
  m (-10) 173 0 0 2 (-2) 1 0 0 0 0 0 0 0 0 0,
  m (-2) 133 1 0 (-2) 0 (-2) 0 0 0 0 0 0 0 0 0,
  m (-4) 83 1 0 0 0 1 0 0 0 0 0 0 0 0 0,
  m (-5) (-79) 1 0 0 0 (-1) 0 0 0 0 0 0 0 0 0,
  m 3 (-66) 1 0 2 0 1 0 0 0 0 0 0 0 0 0,
  m 0 (-64) 1 0 (-2) (-2) (-2) 0 0 0 0 0 0 0 0 0,
  m 4 61 2 0 (-2) 0 (-1) 0 0 0 0 0 0 0 0 0,
  m (-1) (-41) 0 0 2 2 2 0 0 0 0 0 0 0 0 0,
  m (-1) 35 0 2 (-2) 2 (-2) 0 0 0 0 0 0 0 0 0,
  m (-1) (-33) 2 0 2 0 2 0 0 0 0 0 0 0 0 0,
  m 1 31 1 0 2 (-2) 2 0 0 0 0 0 0 0 0 0,
  m 1 27 1 0 (-2) 0 (-1) 0 0 0 0 0 0 0 0 0,
  m (-7) (-17) 0 2 2 (-2) 2 0 0 0 0 0 0 0 0 0,
  m 7 17 1 0 0 0 0 0 0 0 0 0 0 0 0 0,
  m 2 (-21) 0 1 0 0 1 0 0 0 0 0 0 0 0 0,
  m 1 20 1 0 0 (-2) (-1) 0 0 0 0 0 0 0 0 0,
  m 1 (-17) 1 0 0 (-2) 1 0 0 0 0 0 0 0 0 0,
  m 1 (-16) 0 1 0 0 (-1) 0 0 0 0 0 0 0 0 0,
  m 0 (-13) 1 0 (-2) (-2) (-1) 0 0 0 0 0 0 0 0 0,
  m (-7) (-4) 0 0 1 (-1) 1 0 0 (-1) 0 (-2) 5 0 0 0,
  m 2 8 0 1 2 0 2 0 0 0 0 0 0 0 0 0]

/-- Terms of degree 2 in t. -/
def tableY2 : List Term := tableY2_0

private def tableY3_0 : List Term := [
  m (-1522) (-161) 0 0 0 0 1 0 0 0 0 0 0 0 0 0,
  m (-116) (-1) 0 0 2 (-2) 2 0 0 0 0 0 0 0 0 0,
  m (-20) 0 0 0 2 0 2 0 0 0 0 0 0 0 0 0,
  m 18 0 0 0 0 0 2 0 0 0 0 0 0 0 0 0,
  m 13 0 0 1 0 0 0 0 0 0 0 0 0 0 0 0]

/-- Terms of degree 3 in t. -/
def tableY3 : List Term := tableY3_0

private def tableY4_0 : List Term := [
  m (-2) 11 0 0 0 0 1 0 0 0 0 0 0 0 0 0]

/-- Terms of degree 4 in t. -/
def tableY4 : List Term := tableY4_0

end Verif.Cip.Spec
