import Verif.Spec.CipTerm
/-
Table 5.2a of the IERS Conventions (2010), as quoted in script/tables52ab.py: one list per power of t.
Columns: coefficient of sin and of cos (hundredths of a microarcsecond), multipliers of
l, l', F, D, Ω, L_Me, L_Ve, L_E, L_Ma, L_J, L_Sa, L_U, L_Ne, p_A.
-/
namespace Verif.Cip.Spec

private def tableX0_0 : List Term := [
  m (-684431844) 132867 0 0 0 0 1 0 0 0 0 0 0 0 0 0,
  m (-52390804) (-54475) 0 0 2 (-2) 2 0 0 0 0 0 0 0 0 0,
  m (-9055222) 11123 0 0 2 0 2 0 0 0 0 0 0 0 0 0,
  m 8216876 (-2764) 0 0 0 0 2 0 0 0 0 0 0 0 0 0,
  m 5870702 47005 0 1 0 0 0 0 0 0 0 0 0 0 0 0,
  m 2828828 (-3469) 1 0 0 0 0 0 0 0 0 0 0 0 0 0,
  m (-2055778) (-2084) 0 1 2 (-2) 2 0 0 0 0 0 0 0 0 0,
  m (-1540685) 1512 0 0 2 0 1 0 0 0 0 0 0 0 0 0,
  m (-1199174) 3246 1 0 2 0 2 0 0 0 0 0 0 0 0 0,
  m (-858495) 442 0 1 (-2) 2 (-2) 0 0 0 0 0 0 0 0 0,
  m (-624502) (-668) 1 0 0 (-2) 0 0 0 0 0 0 0 0 0 0,
  m 509550 719 0 0 2 (-2) 1 0 0 0 0 0 0 0 0 0,
  m (-491093) 76 1 0 (-2) 0 (-2) 0 0 0 0 0 0 0 0 0,
  m 252107 (-597) 0 0 0 2 0 0 0 0 0 0 0 0 0 0,
  m 251185 107 1 0 0 0 1 0 0 0 0 0 0 0 0 0,
  m 237258 593 1 0 (-2) (-2) (-2) 0 0 0 0 0 0 0 0 0,
  m 230758 (-752) 1 0 0 0 (-1) 0 0 0 0 0 0 0 0 0,
  m (-205316) 513 1 0 2 0 1 0 0 0 0 0 0 0 0 0,
  m 189827 (-72) 2 0 0 (-2) 0 0 0 0 0 0 0 0 0 0,
  m (-182549) 123 2 0 (-2) 0 (-1) 0 0 0 0 0 0 0 0 0,
  m (-153409) 629 0 0 2 2 2 0 0 0 0 0 0 0 0 0,
  m (-129202) 0 0 2 (-2) 2 (-2) 0 0 0 0 0 0 0 0 0,
  m (-123496) 521 2 0 2 0 2 0 0 0 0 0 0 0 0 0,
  m 116322 (-294) 2 0 0 0 0 0 0 0 0 0 0 0 0 0,
  m 113748 (-4) 1 0 2 (-2) 2 0 0 0 0 0 0 0 0 0,
  m 102970 (-263) 0 0 2 0 0 0 0 0 0 0 0 0 0 0,
  m (-86648) 52 0 0 2 (-2) 0 0 0 0 0 0 0 0 0 0,
  m (-81313) 40 1 0 (-2) 0 (-1) 0 0 0 0 0 0 0 0 0,
  m 66457 (-40) 0 2 0 0 0 0 0 0 0 0 0 0 0 0,
  m (-62824) (-64) 0 2 2 (-2) 2 0 0 0 0 0 0 0 0 0,
  m (-60352) 44 1 0 0 (-2) (-1) 0 0 0 0 0 0 0 0 0,
  m (-55626) 316 0 1 0 0 1 0 0 0 0 0 0 0 0 0,
  m (-51237) (-147) 1 0 0 (-2) 1 0 0 0 0 0 0 0 0 0,
  m 50665 254 0 1 0 0 (-1) 0 0 0 0 0 0 0 0 0,
  m 43851 (-56) 2 0 (-2) 0 0 0 0 0 0 0 0 0 0 0,
  m 40591 99 1 0 (-2) (-2) (-1) 0 0 0 0 0 0 0 0 0,
  m (-12267) 20378 0 0 1 (-1) 1 0 0 (-1) 0 (-2) 5 0 0 0,
  m (-30578) 175 1 0 2 2 2 0 0 0 0 0 0 0 0 0,
  m 30099 (-44) 0 1 2 0 2 0 0 0 0 0 0 0 0 0,
  m (-29237) (-32) 1 1 0 (-2) 0 0 0 0 0 0 0 0 0 0,
  m 28409 32 0 1 (-2) 0 (-2) 0 0 0 0 0 0 0 0 0,
  m (-26402) 99 0 0 2 2 1 0 0 0 0 0 0 0 0 0,
  m 26154 (-95) 1 0 0 2 0 0 0 0 0 0 0 0 0 0,
  m 25630 (-28) 2 0 2 (-2) 2 0 0 0 0 0 0 0 0 0,
  m (-25054) 8 0 0 0 2 1 0 0 0 0 0 0 0 0 0,
  m 23072 8 1 0 2 (-2) 1 0 0 0 0 0 0 0 0 0,
  m 22978 (-60) 2 0 0 (-2) (-1) 0 0 0 0 0 0 0 0 0,
  m (-21282) 84 2 0 2 0 1 0 0 0 0 0 0 0 0 0,
  m 19664 (-84) 0 0 0 2 (-1) 0 0 0 0 0 0 0 0 0,
  m 18895 (-12) 0 1 (-2) 2 (-1) 0 0 0 0 0 0 0 0 0,
  m 18795 (-24) 1 (-1) 0 0 0 0 0 0 0 0 0 0 0 0,
  m (-16015) (-1404) 1 0 0 (-1) 0 0 0 0 0 0 0 0 0 0,
  m (-17295) (-40) 0 1 0 (-2) 0 0 0 0 0 0 0 0 0 0,
  m (-16826) 20 0 0 0 1 0 0 0 0 0 0 0 0 0 0,
  m 16179 24 2 0 0 (-2) 1 0 0 0 0 0 0 0 0 0,
  m 16134 20 1 0 (-2) 0 0 0 0 0 0 0 0 0 0 0,
  m 5744 9582 0 0 0 0 0 0 0 0 0 2 (-5) 0 0 (-1),
  m 14216 20 0 1 2 (-2) 1 0 0 0 0 0 0 0 0 0,
  m (-13481) 20 1 1 0 0 0 0 0 0 0 0 0 0 0 0,
  m 13281 (-52) 1 0 2 0 0 0 0 0 0 0 0 0 0 0,
  m (-13031) 4 1 (-1) 0 (-1) 0 0 0 0 0 0 0 0 0 0,
  m 12198 (-8) 2 0 (-2) 0 (-2) 0 0 0 0 0 0 0 0 0,
  m (-11540) 60 3 0 2 0 2 0 0 0 0 0 0 0 0 0,
  m (-11449) 32 1 (-1) 2 0 2 0 0 0 0 0 0 0 0 0,
  m 11214 28 1 1 (-2) (-2) (-2) 0 0 0 0 0 0 0 0 0,
  m 10529 44 0 1 (-2) (-2) (-2) 0 0 0 0 0 0 0 0 0,
  m 9869 (-28) 1 1 2 0 2 0 0 0 0 0 0 0 0 0,
  m 9131 (-40) 2 0 0 0 (-1) 0 0 0 0 0 0 0 0 0,
  m 8674 (-8) 2 0 0 0 1 0 0 0 0 0 0 0 0 0,
  m (-1838) 6380 0 0 0 0 0 0 0 4 (-8) 3 0 0 0 0,
  m 8214 0 0 0 0 0 0 0 3 (-5) 0 0 0 0 0 (-2),
  m 7903 (-24) 1 0 (-2) 2 (-1) 0 0 0 0 0 0 0 0 0,
  m 0 (-7908) 0 1 (-1) 1 (-1) 0 0 0 0 0 0 0 0 0,
  m (-7856) 0 1 0 0 0 2 0 0 0 0 0 0 0 0 0,
  m 4773 2379 0 0 1 (-1) 1 0 (-8) 12 0 0 0 0 0 0,
  m 6603 (-20) 0 0 2 1 2 0 0 0 0 0 0 0 0 0,
  m 6265 (-24) 3 0 0 0 0 0 0 0 0 0 0 0 0 0,
  m 6050 36 1 0 (-2) (-4) (-2) 0 0 0 0 0 0 0 0 0,
  m 5907 0 0 0 0 0 0 0 1 (-1) 0 0 0 0 0 0,
  m 5728 0 0 0 0 0 0 0 0 8 (-16) 4 5 0 0 0,
  m (-5566) 16 1 0 0 0 (-2) 0 0 0 0 0 0 0 0 0,
  m (-5481) (-8) 2 0 (-2) (-2) (-2) 0 0 0 0 0 0 0 0 0,
  m (-5322) (-20) 1 0 0 (-4) 0 0 0 0 0 0 0 0 0 0,
  m (-5295) 32 1 0 2 2 1 0 0 0 0 0 0 0 0 0,
  m (-5227) 0 1 (-1) 0 (-1) (-1) 0 0 0 0 0 0 0 0 0,
  m 5132 0 1 1 2 (-2) 2 0 0 0 0 0 0 0 0 0,
  m (-5100) (-12) 2 0 0 (-4) 0 0 0 0 0 0 0 0 0 0,
  m 5102 0 0 2 (-2) 2 (-1) 0 0 0 0 0 0 0 0 0,
  m (-4865) (-115) 0 0 0 0 0 0 0 1 0 (-1) 0 0 0 0,
  m 4829 20 2 0 (-2) (-4) (-2) 0 0 0 0 0 0 0 0 0,
  m (-4638) 0 0 0 0 0 0 0 0 0 0 2 0 0 0 2,
  m (-4559) (-12) 1 0 (-4) 0 (-2) 0 0 0 0 0 0 0 0 0,
  m (-4376) 36 2 0 2 2 2 0 0 0 0 0 0 0 0 0,
  m (-4058) (-100) 1 0 0 (-1) (-1) 0 0 0 0 0 0 0 0 0,
  m 0 (-4153) 1 0 (-1) 0 (-1) 0 0 0 0 0 0 0 0 0,
  m 4054 (-4) 2 0 2 (-2) 1 0 0 0 0 0 0 0 0 0,
  m 4033 (-4) 2 1 0 (-2) 0 0 0 0 0 0 0 0 0 0,
  m (-3857) 8 1 0 0 2 1 0 0 0 0 0 0 0 0 0,
  m 3775 4 1 (-1) 0 (-2) 0 0 0 0 0 0 0 0 0 0,
  m 3715 (-12) 3 0 2 (-2) 2 0 0 0 0 0 0 0 0 0,
  m 3668 (-4) 0 0 4 (-2) 2 0 0 0 0 0 0 0 0 0,
  m (-1830) (-1730) 0 0 0 0 1 0 0 (-1) 2 0 0 0 0 0,
  m (-1786) 1710 0 0 0 0 0 0 0 1 (-2) 0 0 0 0 0,
  m (-3481) 4 0 1 (-2) 2 0 0 0 0 0 0 0 0 0 0,
  m (-3322) 8 0 0 2 (-2) (-1) 0 0 0 0 0 0 0 0 0,
  m 3243 (-4) 0 1 2 0 1 0 0 0 0 0 0 0 0 0,
  m (-3047) 4 1 0 2 (-2) 0 0 0 0 0 0 0 0 0 0,
  m (-2953) 4 1 1 0 (-2) (-1) 0 0 0 0 0 0 0 0 0,
  m 2850 (-8) 2 0 (-2) 0 1 0 0 0 0 0 0 0 0 0,
  m 2835 (-16) 0 1 0 0 2 0 0 0 0 0 0 0 0 0,
  m (-2800) 0 0 0 2 (-1) 2 0 0 0 0 0 0 0 0 0,
  m (-2761) 20 0 0 2 4 2 0 0 0 0 0 0 0 0 0,
  m (-2677) 8 0 1 0 2 0 0 0 0 0 0 0 0 0 0,
  m 2654 (-12) 0 0 2 0 (-1) 0 0 0 0 0 0 0 0 0,
  m 2654 4 0 1 (-2) 0 (-1) 0 0 0 0 0 0 0 0 0,
  m (-2617) 0 0 1 2 (-2) 0 0 0 0 0 0 0 0 0 0,
  m (-2542) (-8) 1 0 (-2) (-2) 0 0 0 0 0 0 0 0 0 0,
  m (-1691) 843 0 0 0 0 0 0 8 (-13) 0 0 0 0 0 (-1),
  m 32 2442 0 0 0 0 0 0 2 (-3) 0 0 0 0 0 0,
  m (-1953) 509 0 0 0 0 0 0 0 0 0 2 (-5) 0 0 0,
  m (-2379) 0 0 0 0 0 0 0 2 (-2) 0 0 0 0 0 0,
  m 2366 0 1 (-1) 0 (-1) (-2) 0 0 0 0 0 0 0 0 0,
  m (-2347) 16 1 (-1) 2 2 2 0 0 0 0 0 0 0 0 0,
  m 2339 (-12) 2 0 0 2 0 0 0 0 0 0 0 0 0 0,
  m (-2349) 0 0 1 0 0 (-2) 0 0 0 0 0 0 0 0 0,
  m (-2328) (-8) 1 1 0 (-2) 1 0 0 0 0 0 0 0 0 0,
  m (-2299) 4 1 0 (-2) 2 0 0 0 0 0 0 0 0 0 0,
  m (-2267) (-8) 1 (-1) (-2) (-2) (-2) 0 0 0 0 0 0 0 0 0,
  m 935 1329 0 0 0 0 0 0 8 (-13) 0 0 0 0 0 0,
  m 2247 (-4) 0 1 0 1 0 0 0 0 0 0 0 0 0 0,
  m 489 (-1655) 0 0 0 0 0 0 0 2 (-8) 3 0 0 0 (-2),
  m 489 (-1651) 0 0 0 0 0 0 0 6 (-8) 3 0 0 0 2,
  m 2128 (-8) 0 1 2 2 2 0 0 0 0 0 0 0 0 0,
  m 2057 64 0 0 0 0 0 0 0 3 0 (-1) 0 0 0 2,
  m 2101 0 1 (-1) 0 0 1 0 0 0 0 0 0 0 0 0,
  m 123 (-1913) 0 0 1 (-1) 1 0 0 (-1) 0 2 (-5) 0 0 0,
  m (-1997) 12 3 0 2 0 1 0 0 0 0 0 0 0 0 0,
  m 1965 (-8) 0 0 0 4 0 0 0 0 0 0 0 0 0 0,
  m 1958 (-12) 1 0 0 2 (-1) 0 0 0 0 0 0 0 0 0,
  m 1961 (-8) 1 (-1) 0 2 0 0 0 0 0 0 0 0 0 0,
  m (-1941) 8 2 (-1) 2 0 2 0 0 0 0 0 0 0 0 0,
  m (-1949) 0 0 0 0 0 0 0 4 (-6) 0 0 0 0 0 (-2),
  m (-1864) 0 0 0 0 2 2 0 0 0 0 0 0 0 0 0,
  m 1858 4 1 1 (-2) (-2) (-1) 0 0 0 0 0 0 0 0 0,
  m (-1842) 0 1 (-1) (-2) 0 (-2) 0 0 0 0 0 0 0 0 0,
  m 1822 0 0 0 0 0 0 0 2 (-4) 0 0 0 0 0 (-2),
  m (-72) (-1734) 0 0 2 (-2) 1 0 (-5) 6 0 0 0 0 0 0,
  m (-1802) (-4) 1 0 2 (-4) 1 0 0 0 0 0 0 0 0 0,
  m 1774 8 0 1 (-2) (-2) (-1) 0 0 0 0 0 0 0 0 0,
  m 1746 0 2 0 0 (-2) 0 0 0 (-2) 0 2 0 0 0 0,
  m (-1742) 0 0 3 2 (-2) 2 0 0 0 0 0 0 0 0 0,
  m (-660) 1070 0 0 0 0 0 0 0 1 0 (-2) 0 0 0 0,
  m 1643 52 0 0 0 0 0 0 0 2 0 (-2) 0 0 0 0,
  m (-1675) 4 1 (-1) 2 0 1 0 0 0 0 0 0 0 0 0,
  m 1655 (-8) 0 0 2 2 0 0 0 0 0 0 0 0 0 0,
  m 1639 (-8) 2 1 2 0 2 0 0 0 0 0 0 0 0 0,
  m 1388 (-247) 2 0 0 (-2) 0 0 0 (-2) 0 3 0 0 0 0,
  m 1569 0 1 0 0 (-2) (-2) 0 0 0 0 0 0 0 0 0,
  m (-1552) 0 0 0 0 1 1 0 0 0 0 0 0 0 0 0,
  m 334 1186 0 0 0 0 1 0 0 (-4) 8 (-3) 0 0 0 0,
  m 1472 (-32) 0 0 0 0 0 0 2 0 0 0 0 0 0 2,
  m 1492 (-4) 2 (-1) 0 0 0 0 0 0 0 0 0 0 0 0,
  m (-326) 1162 0 0 0 0 1 0 0 4 (-8) 3 0 0 0 0,
  m (-1464) 0 0 0 0 0 0 0 0 2 (-2) 0 0 0 0 0,
  m 0 1447 1 0 (-1) 0 (-2) 0 0 0 0 0 0 0 0 0,
  m (-1437) 0 1 1 0 0 1 0 0 0 0 0 0 0 0 0,
  m 1432 (-4) 1 1 2 0 1 0 0 0 0 0 0 0 0 0,
  m (-1410) 4 1 0 (-2) 2 (-2) 0 0 0 0 0 0 0 0 0,
  m 1086 318 0 0 1 (-1) 1 0 0 0 (-2) 0 0 0 0 0,
  m (-1058) (-310) 0 0 1 (-1) 0 0 0 0 (-2) 0 0 0 0 0,
  m (-362) 986 0 0 0 0 0 0 0 0 0 1 0 0 0 0,
  m (-1348) 0 0 0 0 0 0 0 1 1 0 0 0 0 0 2,
  m 1341 (-4) 1 0 2 1 2 0 0 0 0 0 0 0 0 0,
  m 1332 (-8) 2 0 2 0 0 0 0 0 0 0 0 0 0 0,
  m (-1333) (-4) 0 1 0 (-2) 1 0 0 0 0 0 0 0 0 0,
  m (-1329) 0 1 0 2 (-1) 2 0 0 0 0 0 0 0 0 0,
  m (-20) 1305 0 0 0 0 0 0 3 (-4) 0 0 0 0 0 0,
  m 0 1313 1 0 (-1) 0 0 0 0 0 0 0 0 0 0 0,
  m (-899) 402 1 0 0 0 0 0 (-18) 16 0 0 0 0 0 0,
  m (-1293) 4 1 0 0 1 0 0 0 0 0 0 0 0 0 0,
  m 203 1082 0 0 0 0 0 0 0 0 0 2 0 0 0 1,
  m (-1278) 4 0 0 0 1 (-1) 0 0 0 0 0 0 0 0 0,
  m 1224 4 1 0 0 (-2) 2 0 0 0 0 0 0 0 0 0,
  m 871 354 1 0 0 0 0 0 (-10) 3 0 0 0 0 0 0,
  m 1198 (-4) 1 (-1) 0 0 (-1) 0 0 0 0 0 0 0 0 0,
  m (-1138) 4 2 1 0 0 0 0 0 0 0 0 0 0 0 0,
  m (-1130) 0 2 0 0 (-2) (-1) 0 0 (-2) 0 2 0 0 0 0,
  m 1114 (-4) 0 0 2 1 1 0 0 0 0 0 0 0 0 0,
  m 1098 0 0 3 0 0 0 0 0 0 0 0 0 0 0 0,
  m (-1098) 0 1 2 0 (-2) 0 0 0 0 0 0 0 0 0 0,
  m 44 (-1038) 0 0 0 0 0 0 5 (-8) 0 0 0 0 0 (-2),
  m 1046 8 1 0 (-2) (-4) (-1) 0 0 0 0 0 0 0 0 0,
  m (-1042) 0 0 0 0 0 0 0 0 1 0 1 0 0 0 2,
  m (-1030) 8 4 0 2 0 2 0 0 0 0 0 0 0 0 0,
  m 692 334 0 0 1 (-1) 1 0 0 (-1) 0 0 (-1) 0 0 0,
  m 1007 4 1 0 (-2) 0 1 0 0 0 0 0 0 0 0 0,
  m 1002 0 2 1 2 (-2) 2 0 0 0 0 0 0 0 0 0,
  m (-975) 4 0 1 2 1 2 0 0 0 0 0 0 0 0 0,
  m 975 0 1 1 2 (-2) 1 0 0 0 0 0 0 0 0 0,
  m 967 (-4) 1 0 4 (-2) 2 0 0 0 0 0 0 0 0 0]

private def tableX0_1 : List Term := [
  m (-199) 772 0 0 1 (-1) 1 0 0 (-1) 0 (-1) 0 0 0 0,
  m 40 927 0 0 2 (-2) 0 0 (-5) 6 0 0 0 0 0 0,
  m (-342) 609 0 0 0 0 0 0 0 2 (-4) 0 0 0 0 0,
  m 56 (-867) 0 0 0 0 0 0 0 0 0 2 (-5) 0 0 1,
  m (-919) 0 2 0 (-2) (-2) (-1) 0 0 0 0 0 0 0 0 0,
  m 911 0 1 0 (-2) 1 (-1) 0 0 0 0 0 0 0 0 0,
  m 907 0 2 (-2) 0 (-2) 0 0 0 0 0 0 0 0 0 0,
  m 163 696 0 0 0 0 0 0 8 (-13) 0 0 0 0 0 (-2),
  m (-847) 0 0 2 0 (-2) 0 0 0 0 0 0 0 0 0 0,
  m (-828) 4 1 1 0 0 (-1) 0 0 0 0 0 0 0 0 0,
  m 827 4 2 0 (-2) (-4) (-1) 0 0 0 0 0 0 0 0 0,
  m (-804) 0 0 0 0 0 0 0 5 (-7) 0 0 0 0 0 (-2),
  m 791 0 0 1 0 2 1 0 0 0 0 0 0 0 0 0,
  m (-784) (-4) 1 0 (-4) 0 (-1) 0 0 0 0 0 0 0 0 0,
  m (-764) 8 2 0 2 2 1 0 0 0 0 0 0 0 0 0,
  m 521 (-251) 1 0 2 0 2 0 0 1 0 0 0 0 0 0,
  m (-577) 187 0 0 0 0 0 0 3 (-5) 0 0 0 0 0 0,
  m 501 (-251) 1 0 (-2) 0 (-2) 0 0 4 (-8) 3 0 0 0 0,
  m (-748) 0 0 0 2 (-3) 2 0 0 0 0 0 0 0 0 0,
  m (-732) (-12) 0 0 0 0 0 0 0 4 0 (-2) 0 0 0 2,
  m 740 (-4) 0 0 4 0 2 0 0 0 0 0 0 0 0 0,
  m 744 0 1 0 0 (-4) (-1) 0 0 0 0 0 0 0 0 0,
  m 632 (-111) 1 0 0 (-1) 1 0 0 0 0 0 0 0 0 0,
  m (-613) (-119) 0 0 0 0 0 0 0 2 0 (-1) 0 0 0 2,
  m 20 (-688) 0 0 0 0 0 0 2 (-1) 0 0 0 0 0 2,
  m 692 4 1 1 (-2) (-4) (-2) 0 0 0 0 0 0 0 0 0,
  m 648 (-48) 0 0 0 0 0 0 0 2 0 1 0 0 0 2,
  m (-694) 0 2 0 0 (-2) (-2) 0 0 0 0 0 0 0 0 0,
  m 247 (-446) 0 0 0 0 0 0 8 (-11) 0 0 0 0 0 (-2),
  m (-223) (-465) 0 0 0 0 0 0 0 8 (-16) 4 5 0 0 (-2),
  m (-107) (-569) 0 0 1 (-1) 1 0 0 (-1) 0 2 0 0 0 0,
  m 497 (-171) 0 0 0 0 0 0 0 8 (-16) 4 5 0 0 2,
  m 557 107 0 0 1 (-1) 1 0 (-5) 7 0 0 0 0 0 0,
  m (-648) 8 1 0 2 4 2 0 0 0 0 0 0 0 0 0,
  m 203 453 0 0 0 0 0 0 0 0 0 0 2 0 0 1,
  m 410 (-239) 1 0 0 (-2) 0 0 19 (-21) 3 0 0 0 0 0,
  m 0 (-644) 0 0 1 0 1 0 0 0 0 0 0 0 0 0,
  m (-640) 0 3 0 0 (-4) 0 0 0 0 0 0 0 0 0 0,
  m 632 0 1 1 (-2) 0 (-2) 0 0 0 0 0 0 0 0 0,
  m 267 (-362) 0 0 0 0 0 0 0 3 0 (-2) 0 0 0 2,
  m (-191) (-438) 0 0 1 (-1) 1 0 0 (-1) 0 0 2 0 0 0,
  m (-243) (-382) 0 0 0 0 0 0 8 (-15) 0 0 0 0 0 (-2),
  m 620 0 0 1 0 (-2) (-1) 0 0 0 0 0 0 0 0 0,
  m (-338) (-278) 0 0 0 0 0 0 0 1 2 0 0 0 0 2,
  m (-612) 4 0 0 0 4 1 0 0 0 0 0 0 0 0 0,
  m (-609) (-4) 0 0 2 (-4) 1 0 0 0 0 0 0 0 0 0,
  m (-601) (-4) 1 1 0 (-4) 0 0 0 0 0 0 0 0 0 0,
  m 318 (-282) 0 0 0 0 0 0 0 3 (-2) 0 0 0 0 2,
  m (-505) 84 0 0 0 0 0 0 0 0 0 3 0 0 0 2,
  m 585 0 3 0 2 (-2) 1 0 0 0 0 0 0 0 0 0,
  m 569 (-12) 0 0 0 0 0 0 0 4 (-2) 0 0 0 0 2,
  m 573 (-4) 1 1 2 2 2 0 0 0 0 0 0 0 0 0,
  m 561 0 0 0 4 (-2) 1 0 0 0 0 0 0 0 0 0,
  m 549 0 2 0 0 (-2) 0 0 (-3) 3 0 0 0 0 0 0,
  m (-533) 4 3 0 2 2 2 0 0 0 0 0 0 0 0 0,
  m (-529) 0 0 0 0 0 0 0 0 0 0 0 2 0 0 2,
  m 525 0 2 1 0 (-2) (-1) 0 0 0 0 0 0 0 0 0,
  m 99 422 0 0 0 0 0 0 4 (-6) 0 0 0 0 0 (-1),
  m (-99) 422 0 0 0 0 0 0 1 (-1) 0 0 0 0 0 (-1),
  m 0 521 1 0 0 (-1) 0 0 (-3) 4 0 0 0 0 0 0,
  m 513 4 0 2 (-2) (-2) (-2) 0 0 0 0 0 0 0 0 0,
  m (-490) 0 2 0 0 (-4) (-1) 0 0 0 0 0 0 0 0 0,
  m (-310) 179 0 0 0 0 0 0 0 3 (-4) 0 0 0 0 0,
  m (-481) 4 0 0 2 4 1 0 0 0 0 0 0 0 0 0,
  m (-475) 0 0 0 0 2 (-2) 0 0 0 0 0 0 0 0 0,
  m 470 (-4) 3 0 0 0 (-1) 0 0 0 0 0 0 0 0 0,
  m (-469) 0 0 0 0 0 0 0 0 1 0 (-3) 0 0 0 (-2),
  m (-465) 0 0 0 0 0 0 0 6 (-8) 0 0 0 0 0 (-2),
  m 465 0 0 0 2 (-2) 1 0 (-3) 3 0 0 0 0 0 0,
  m (-457) 0 2 1 0 (-4) 0 0 0 0 0 0 0 0 0 0,
  m 449 (-4) 4 0 2 (-2) 2 0 0 0 0 0 0 0 0 0,
  m (-453) 0 0 0 1 (-1) 1 0 0 3 (-8) 3 0 0 0 0,
  m 0 (-453) 0 0 0 0 0 0 3 (-2) 0 0 0 0 0 2,
  m 0 (-453) 0 0 0 0 0 0 2 (-5) 0 0 0 0 0 (-2),
  m (-453) 0 2 0 0 2 1 0 0 0 0 0 0 0 0 0,
  m 450 0 1 (-1) 0 (-2) (-1) 0 0 0 0 0 0 0 0 0,
  m (-449) 0 0 0 0 0 0 0 1 (-3) 0 0 0 0 0 (-2),
  m 183 263 0 0 0 0 1 0 8 (-13) 0 0 0 0 0 0,
  m 438 0 2 1 (-2) (-4) (-2) 0 0 0 0 0 0 0 0 0,
  m 88 (-346) 0 0 0 0 0 0 1 (-2) 0 0 0 0 0 0,
  m (-270) 155 0 0 0 0 0 0 0 2 (-3) 0 0 0 0 0,
  m (-422) 0 0 0 2 (-1) 1 0 0 0 0 0 0 0 0 0,
  m (-410) (-12) 1 1 0 2 0 0 0 0 0 0 0 0 0 0,
  m 354 (-64) 2 0 0 (-2) 1 0 0 (-2) 0 3 0 0 0 0,
  m (-350) 68 0 0 0 0 0 0 5 (-8) 0 0 0 0 0 (-1),
  m 418 0 1 (-1) (-2) 2 (-1) 0 0 0 0 0 0 0 0 0,
  m 414 0 1 2 (-2) (-2) (-2) 0 0 0 0 0 0 0 0 0,
  m 410 0 1 0 0 (-3) 0 0 0 0 0 0 0 0 0 0,
  m (-406) 0 2 0 0 (-4) 1 0 0 0 0 0 0 0 0 0,
  m 270 (-135) 1 0 0 0 (-1) 0 (-18) 16 0 0 0 0 0 0,
  m (-404) 0 2 0 0 (-2) 2 0 0 0 0 0 0 0 0 0,
  m (-398) (-4) 1 0 0 (-4) 1 0 0 0 0 0 0 0 0 0,
  m (-398) 4 1 (-1) 2 2 1 0 0 0 0 0 0 0 0 0,
  m 402 0 2 0 2 (-4) 1 0 0 0 0 0 0 0 0 0,
  m 394 0 0 0 1 (-1) 1 0 0 (-5) 8 (-3) 0 0 0 0,
  m 84 (-310) 0 0 1 (-1) 0 0 0 (-1) 0 (-1) 0 0 0 0,
  m 330 60 0 0 0 0 0 0 0 2 0 (-3) 0 0 0 0,
  m (-159) 227 0 0 0 0 1 0 (-8) 13 0 0 0 0 0 0,
  m (-366) (-20) 2 (-1) 0 (-2) 0 0 0 0 0 0 0 0 0 0,
  m (-310) (-72) 2 0 0 (-2) 0 0 (-6) 8 0 0 0 0 0 0,
  m (-382) 0 1 (-1) (-2) 0 (-1) 0 0 0 0 0 0 0 0 0,
  m (-362) (-16) 2 1 (-2) 0 (-1) 0 0 0 0 0 0 0 0 0,
  m (-374) 0 0 1 (-2) 1 (-2) 0 0 0 0 0 0 0 0 0,
  m 374 0 4 0 0 0 0 0 0 0 0 0 0 0 0 0,
  m (-374) 0 0 2 (-2) 2 0 0 0 0 0 0 0 0 0 0,
  m (-371) 0 0 2 0 0 1 0 0 0 0 0 0 0 0 0,
  m 302 68 0 0 0 0 1 0 0 0 0 (-2) 5 0 0 0,
  m 370 0 1 0 (-4) 2 (-2) 0 0 0 0 0 0 0 0 0,
  m 330 40 0 2 (-2) 0 (-2) 0 0 0 0 0 0 0 0 0,
  m (-366) 4 2 (-1) 2 2 2 0 0 0 0 0 0 0 0 0,
  m 366 4 0 1 (-2) (-4) (-2) 0 0 0 0 0 0 0 0 0,
  m (-362) 0 1 0 (-2) (-3) (-2) 0 0 0 0 0 0 0 0 0,
  m (-361) 0 2 0 0 0 2 0 0 0 0 0 0 0 0 0,
  m (-290) 68 0 0 0 0 1 0 0 0 0 2 (-5) 0 0 0,
  m 80 (-278) 0 0 0 0 1 0 0 0 0 1 0 0 0 0,
  m 354 0 0 0 0 0 0 0 3 (-3) 0 0 0 0 0 0,
  m (-354) 0 0 0 0 0 0 0 0 2 0 0 0 0 0 2,
  m (-350) 0 2 0 2 (-2) 0 0 0 0 0 0 0 0 0 0,
  m 345 0 0 2 2 (-2) 1 0 0 0 0 0 0 0 0 0,
  m 0 (-342) 0 0 0 0 0 0 0 6 (-16) 4 5 0 0 (-2),
  m 338 0 1 (-2) 0 0 0 0 0 0 0 0 0 0 0 0,
  m 227 (-111) 1 0 0 0 1 0 (-18) 16 0 0 0 0 0 0,
  m (-334) 0 1 (-1) (-2) (-2) (-1) 0 0 0 0 0 0 0 0 0,
  m 334 0 0 1 2 2 1 0 0 0 0 0 0 0 0 0,
  m (-330) 1 0 0 2 0 3 0 0 0 0 0 0 0 0 0,
  m 331 0 1 0 2 0 (-1) 0 0 0 0 0 0 0 0 0,
  m 330 0 3 0 0 0 1 0 0 0 0 0 0 0 0 0,
  m (-330) 0 1 0 (-2) (-1) (-2) 0 0 0 0 0 0 0 0 0,
  m (-139) (-191) 0 0 0 0 0 0 0 1 0 2 0 0 0 2,
  m 330 0 0 0 0 0 0 0 4 (-4) 0 0 0 0 0 0,
  m 326 0 2 1 0 (-2) 1 0 0 0 0 0 0 0 0 0,
  m 326 0 1 0 0 4 0 0 0 0 0 0 0 0 0 0,
  m 322 (-4) 1 0 2 2 0 0 0 0 0 0 0 0 0 0,
  m (-326) 0 2 (-1) (-2) 0 (-1) 0 0 0 0 0 0 0 0 0,
  m 251 (-64) 0 0 0 0 0 0 3 (-7) 0 0 0 0 0 (-2),
  m 314 0 2 0 (-4) 0 (-2) 0 0 0 0 0 0 0 0 0,
  m (-263) (-48) 0 0 1 (-1) 1 0 0 (-1) 0 0 1 0 0 0,
  m 310 0 3 0 (-2) 0 (-1) 0 0 0 0 0 0 0 0 0,
  m (-306) 0 2 (-1) 2 0 1 0 0 0 0 0 0 0 0 0,
  m 294 (-12) 1 (-2) 0 (-2) 0 0 0 0 0 0 0 0 0 0,
  m 306 0 2 0 (-2) 2 (-1) 0 0 0 0 0 0 0 0 0,
  m 0 298 0 0 1 0 0 0 0 0 0 0 0 0 0 0,
  m 298 0 1 0 2 (-4) 0 0 0 0 0 0 0 0 0 0,
  m (-298) 0 0 0 0 0 0 0 0 1 0 0 (-1) 0 0 0,
  m 207 91 0 0 0 0 0 0 0 0 0 1 0 0 0 2,
  m 294 0 0 2 2 0 2 0 0 0 0 0 0 0 0 0,
  m (-294) 0 0 0 0 0 0 0 7 (-9) 0 0 0 0 0 (-2),
  m (-294) 0 0 0 0 0 0 0 0 0 2 0 0 0 0 2,
  m (-290) 0 1 (-1) 2 (-2) 2 0 0 0 0 0 0 0 0 0,
  m (-56) (-235) 0 0 0 0 0 0 2 (-4) 0 0 0 0 0 (-1),
  m (-147) 139 0 0 0 0 1 0 0 1 (-2) 0 0 0 0 0,
  m 280 0 1 0 2 (-4) 2 0 0 0 0 0 0 0 0 0,
  m (-274) 0 2 0 2 (-1) 2 0 0 0 0 0 0 0 0 0,
  m 215 (-60) 0 0 0 0 0 0 3 (-3) 0 0 0 0 0 2,
  m (-12) 263 0 0 0 0 0 0 4 (-7) 0 0 0 0 0 (-2),
  m (-270) 0 1 1 (-2) 1 (-1) 0 0 0 0 0 0 0 0 0,
  m 179 (-88) 0 0 0 0 0 0 0 8 (-15) 0 0 0 0 0,
  m (-48) 219 0 0 0 0 0 0 2 (-2) 0 0 0 0 0 (-1),
  m 44 223 0 0 0 0 0 0 0 0 0 0 1 0 0 0,
  m 52 207 0 0 0 0 0 0 0 0 0 1 0 0 0 (-1),
  m (-259) 0 0 1 0 (-4) 0 0 0 0 0 0 0 0 0 0,
  m 255 0 2 1 2 0 1 0 0 0 0 0 0 0 0 0,
  m (-111) 143 0 0 0 0 0 0 0 1 0 (-3) 0 0 0 0,
  m (-251) 0 3 (-1) 2 0 2 0 0 0 0 0 0 0 0 0,
  m (-251) 0 2 1 (-2) (-2) (-2) 0 0 0 0 0 0 0 0 0,
  m 251 0 1 1 (-2) 0 (-1) 0 0 0 0 0 0 0 0 0,
  m 0 (-250) 1 0 (-1) 0 (-3) 0 0 0 0 0 0 0 0 0,
  m 247 0 1 (-1) 0 (-2) 1 0 0 0 0 0 0 0 0 0,
  m 211 (-36) 2 0 0 (-2) (-1) 0 0 (-2) 0 3 0 0 0 0,
  m 167 80 0 0 1 (-1) 0 0 0 (-1) 0 0 (-1) 0 0 0,
  m 246 0 0 2 0 0 (-1) 0 0 0 0 0 0 0 0 0,
  m (-243) 0 1 0 (-2) 1 0 0 0 0 0 0 0 0 0 0,
  m (-239) 0 1 0 2 (-3) 2 0 0 0 0 0 0 0 0 0,
  m 24 215 0 0 0 0 0 0 0 0 0 1 0 0 0 1,
  m (-44) (-195) 0 0 0 0 0 0 3 (-5) 0 0 0 0 0 (-1),
  m (-183) 56 0 0 0 0 0 0 4 (-6) 0 0 0 0 0 0,
  m 239 0 2 0 (-2) (-2) 0 0 0 0 0 0 0 0 0 0,
  m 235 0 0 0 0 0 0 0 5 (-5) 0 0 0 0 0 0,
  m 227 0 1 0 2 1 1 0 0 0 0 0 0 0 0 0,
  m (-222) 0 2 0 0 0 (-2) 0 0 0 0 0 0 0 0 0,
  m (-103) (-115) 1 0 0 (-1) 1 0 0 (-1) 0 2 0 0 0 0,
  m 187 32 0 0 0 0 0 0 0 0 0 0 1 0 0 1,
  m (-32) (-187) 0 0 1 (-1) 1 0 0 (-2) 2 0 0 0 0 0,
  m 215 0 2 0 0 (-2) 1 0 0 (-2) 0 2 0 0 0 0,
  m (-80) 135 0 0 0 0 0 0 0 3 (-5) 0 0 0 0 0,
  m 211 0 3 1 2 0 2 0 0 0 0 0 0 0 0 0,
  m (-211) 0 1 1 2 1 2 0 0 0 0 0 0 0 0 0,
  m (-56) (-155) 0 0 0 0 0 0 5 (-8) 0 0 0 0 0 0,
  m 211 0 1 0 0 (-1) 0 0 0 (-1) 0 1 0 0 0 0,
  m (-84) (-127) 0 0 0 0 0 0 0 0 4 0 0 0 0 2,
  m (-199) 12 0 0 0 0 0 0 8 (-10) 0 0 0 0 0 (-2),
  m (-24) 187 0 0 0 0 0 0 0 1 (-2) 0 0 0 0 (-1),
  m (-24) (-187) 0 0 1 (-1) 1 0 0 (-1) 0 1 0 0 0 0,
  m (-203) 0 1 (-2) 2 0 2 0 0 0 0 0 0 0 0 0,
  m 203 0 2 (-1) 2 (-2) 2 0 0 0 0 0 0 0 0 0,
  m 203 0 2 0 0 (-3) 0 0 0 0 0 0 0 0 0 0,
  m 203 0 0 0 0 0 0 0 0 2 (-4) 0 0 0 0 (-2),
  m (-40) 159 0 0 1 (-1) 1 0 (-3) 4 0 0 0 0 0 0,
  m 199 0 0 0 2 (-2) 1 0 0 (-2) 0 2 0 0 0 0,
  m 195 0 0 1 0 1 1 0 0 0 0 0 0 0 0 0]

private def tableX0_2 : List Term := [
  m 195 0 3 0 0 2 0 0 0 0 0 0 0 0 0 0,
  m 191 0 0 1 0 1 (-1) 0 0 0 0 0 0 0 0 0,
  m 119 (-72) 0 0 0 0 0 0 0 5 (-4) 0 0 0 0 2,
  m 187 0 2 0 2 1 2 0 0 0 0 0 0 0 0 0,
  m 187 0 1 1 0 1 0 0 0 0 0 0 0 0 0 0,
  m (-127) 60 0 0 0 0 0 0 0 0 0 0 1 0 0 (-1),
  m 72 (-115) 0 0 0 0 0 0 0 4 (-4) 0 0 0 0 2,
  m (-99) 88 0 0 0 0 0 0 0 0 0 2 0 0 0 0,
  m 187 0 2 (-1) 0 2 0 0 0 0 0 0 0 0 0 0,
  m (-187) 0 1 1 (-2) 2 (-1) 0 0 0 0 0 0 0 0 0,
  m (-183) 0 2 0 (-4) (-2) (-2) 0 0 0 0 0 0 0 0 0,
  m (-179) 0 0 1 0 2 (-1) 0 0 0 0 0 0 0 0 0,
  m (-179) 0 4 0 2 0 1 0 0 0 0 0 0 0 0 0,
  m 179 0 1 2 2 (-2) 2 0 0 0 0 0 0 0 0 0,
  m 0 (-179) 0 0 0 0 0 0 6 (-9) 0 0 0 0 0 (-2),
  m (-179) 0 1 1 2 (-4) 1 0 0 0 0 0 0 0 0 0,
  m (-175) 0 0 0 4 (-4) 2 0 0 0 0 0 0 0 0 0,
  m (-175) 0 3 0 (-2) (-2) (-2) 0 0 0 0 0 0 0 0 0,
  m 175 0 2 1 (-2) 0 0 0 0 0 0 0 0 0 0 0,
  m (-147) (-28) 0 0 0 0 0 0 0 4 0 (-3) 0 0 0 2,
  m (-171) 0 1 0 2 (-3) 1 0 0 0 0 0 0 0 0 0,
  m 171 0 2 0 (-2) (-6) (-2) 0 0 0 0 0 0 0 0 0,
  m 32 139 0 0 0 0 0 0 5 (-7) 0 0 0 0 0 (-1),
  m (-52) (-119) 0 0 0 0 0 0 0 1 0 2 (-5) 0 0 0,
  m 28 (-143) 0 0 0 0 0 0 0 2 0 0 0 0 0 1,
  m 167 0 2 0 0 2 (-1) 0 0 0 0 0 0 0 0 0,
  m (-167) 0 0 1 2 1 1 0 0 0 0 0 0 0 0 0,
  m (-32) 135 0 0 0 0 0 0 3 (-3) 0 0 0 0 0 (-1),
  m 76 (-91) 0 0 0 0 0 0 2 1 0 0 0 0 0 2,
  m (-139) (-28) 0 0 1 (-1) 0 0 (-5) 7 0 0 0 0 0 0,
  m 163 0 2 1 2 (-2) 1 0 0 0 0 0 0 0 0 0,
  m (-159) 0 1 0 2 (-1) 1 0 0 0 0 0 0 0 0 0,
  m 103 (-56) 0 0 0 0 0 0 0 4 (-3) 0 0 0 0 2,
  m 159 0 0 0 0 0 0 0 6 (-6) 0 0 0 0 0 0,
  m 155 0 1 0 4 (-2) 1 0 0 0 0 0 0 0 0 0,
  m (-28) (-127) 0 0 0 0 0 0 1 (-1) 0 0 0 0 0 1,
  m (-32) (-123) 0 0 0 0 0 0 1 (-3) 0 0 0 0 0 (-1),
  m (-64) 91 0 0 0 0 0 0 0 4 (-6) 0 0 0 0 0,
  m (-155) 0 1 (-1) 2 (-2) 1 0 0 0 0 0 0 0 0 0,
  m (-151) 0 1 0 2 (-2) (-1) 0 0 0 0 0 0 0 0 0,
  m 151 0 2 (-2) 0 (-2) (-1) 0 0 0 0 0 0 0 0 0,
  m (-151) 0 2 (-1) 0 (-2) 1 0 0 0 0 0 0 0 0 0,
  m 151 0 2 0 0 (-1) 0 0 0 0 0 0 0 0 0 0,
  m 147 0 2 0 4 (-2) 2 0 0 0 0 0 0 0 0 0,
  m 147 0 0 0 2 3 2 0 0 0 0 0 0 0 0 0,
  m 123 (-24) 0 0 0 0 0 0 3 (-1) 0 0 0 0 0 2,
  m 95 (-52) 0 0 0 0 0 0 0 3 (-6) 0 0 0 0 (-2),
  m 60 88 2 0 0 (-2) 0 0 0 (-6) 8 0 0 0 0 0,
  m (-147) 0 1 (-1) 0 2 1 0 0 0 0 0 0 0 0 0,
  m (-143) 0 1 0 (-2) 2 1 0 0 0 0 0 0 0 0 0,
  m 143 0 1 (-1) 0 2 (-1) 0 0 0 0 0 0 0 0 0,
  m 143 0 0 1 4 (-2) 2 0 0 0 0 0 0 0 0 0,
  m (-119) (-24) 0 0 0 0 0 0 0 1 0 (-4) 0 0 0 (-2),
  m 36 (-107) 0 0 1 (-1) 1 0 0 (-1) 0 (-4) 10 0 0 0,
  m (-68) (-76) 0 0 1 (-1) 1 0 0 (-1) 0 0 0 0 2 0,
  m 95 (-48) 2 0 2 0 2 0 0 2 0 (-3) 0 0 0 0,
  m (-95) (-48) 0 0 2 0 2 0 0 1 0 0 0 0 0 0,
  m 95 48 2 0 0 (-2) 0 0 0 (-5) 6 0 0 0 0 0,
  m 143 0 1 1 0 (-1) 0 0 0 0 0 0 0 0 0 0,
  m 139 0 0 0 0 4 (-1) 0 0 0 0 0 0 0 0 0,
  m 139 0 2 (-1) 0 0 1 0 0 0 0 0 0 0 0 0,
  m (-139) 0 1 (-2) (-2) (-2) (-2) 0 0 0 0 0 0 0 0 0,
  m (-139) 0 1 2 0 0 0 0 0 0 0 0 0 0 0 0,
  m 0 139 0 0 0 0 0 0 0 2 0 (-1) 0 0 0 0,
  m (-12) (-127) 0 0 0 0 0 0 0 4 0 (-1) 0 0 0 2,
  m 32 (-107) 0 0 0 0 0 0 0 1 0 0 0 0 0 0,
  m 56 84 0 0 0 0 0 0 0 2 (-4) 0 0 0 0 (-1),
  m (-44) (-95) 0 0 0 0 0 0 0 0 0 2 (-5) 0 0 (-2),
  m 103 (-36) 2 0 (-1) (-1) 0 0 0 3 (-7) 0 0 0 0 0,
  m (-28) 111 0 0 1 (-1) 1 0 (-4) 5 0 0 0 0 0 0,
  m 44 95 0 0 1 (-1) 2 0 0 (-1) 0 0 2 0 0 0,
  m (-135) 0 1 (-1) (-2) 2 0 0 0 0 0 0 0 0 0 0,
  m (-135) 0 0 0 0 0 0 0 9 (-11) 0 0 0 0 0 (-2),
  m 88 48 0 0 0 0 0 0 0 1 (-8) 3 0 0 0 (-2),
  m 135 0 1 0 0 (-2) 0 0 0 (-2) 0 2 0 0 0 0,
  m 135 0 1 0 0 (-1) (-2) 0 0 0 0 0 0 0 0 0,
  m (-131) 0 0 1 (-2) 2 1 0 0 0 0 0 0 0 0 0,
  m 131 0 1 0 (-2) 1 (-2) 0 0 0 0 0 0 0 0 0,
  m (-119) (-12) 0 0 0 0 0 0 2 (-3) 0 0 0 0 0 (-1),
  m 127 0 0 0 4 0 1 0 0 0 0 0 0 0 0 0,
  m 40 (-88) 0 0 2 (-2) 1 0 0 (-9) 13 0 0 0 0 0,
  m 127 0 1 0 (-2) (-6) (-2) 0 0 0 0 0 0 0 0 0,
  m 127 0 3 1 2 (-2) 2 0 0 0 0 0 0 0 0 0,
  m (-16) (-111) 0 0 0 0 0 0 1 0 0 0 0 0 0 0,
  m (-84) 44 2 0 0 0 0 0 0 (-2) 0 3 0 0 0 0,
  m 84 (-44) 1 0 2 0 1 0 0 (-2) 0 3 0 0 0 0,
  m 84 (-44) 1 0 (-2) 0 (-1) 0 0 (-1) 0 0 0 0 0 0,
  m (-127) 0 1 0 (-4) (-2) (-2) 0 0 0 0 0 0 0 0 0,
  m (-127) 0 1 0 0 4 1 0 0 0 0 0 0 0 0 0,
  m 127 0 1 1 0 2 1 0 0 0 0 0 0 0 0 0,
  m (-44) (-84) 0 0 0 0 1 0 0 (-2) 4 0 0 0 0 0,
  m 0 (-127) 0 0 0 0 1 0 2 (-3) 0 0 0 0 0 0,
  m (-127) 0 2 0 2 (-4) 2 0 0 0 0 0 0 0 0 0,
  m (-123) 0 1 (-1) (-2) (-4) (-2) 0 0 0 0 0 0 0 0 0,
  m (-123) 0 1 (-2) 2 2 2 0 0 0 0 0 0 0 0 0,
  m 123 0 0 0 2 (-1) 0 0 0 0 0 0 0 0 0 0,
  m 0 123 0 0 0 0 0 0 0 3 (-6) 0 0 0 0 0,
  m (-12) 111 0 0 1 1 1 0 0 1 0 0 0 0 0 0,
  m 122 0 0 0 2 (-4) 2 0 0 0 0 0 0 0 0 0,
  m 119 0 1 1 (-2) (-4) (-1) 0 0 0 0 0 0 0 0 0,
  m (-24) 95 0 0 0 0 0 0 4 (-4) 0 0 0 0 0 (-1),
  m (-76) (-44) 0 0 0 0 0 0 0 3 (-8) 3 0 0 0 0,
  m 91 28 0 0 0 0 0 0 0 1 (-2) 0 0 0 0 1,
  m 119 0 1 1 (-2) 1 0 0 0 0 0 0 0 0 0 0,
  m 119 0 3 0 2 0 0 0 0 0 0 0 0 0 0 0,
  m 0 119 0 0 1 0 2 0 0 0 0 0 0 0 0 0,
  m 115 0 2 (-1) 0 0 (-1) 0 0 0 0 0 0 0 0 0,
  m 0 115 1 0 0 (-1) 1 0 (-3) 4 0 0 0 0 0 0,
  m (-115) 0 1 0 2 4 1 0 0 0 0 0 0 0 0 0,
  m 115 0 2 (-1) (-2) 0 0 0 0 0 0 0 0 0 0 0,
  m (-115) 0 2 0 (-2) 2 0 0 0 0 0 0 0 0 0 0,
  m 115 0 3 (-1) 0 0 0 0 0 0 0 0 0 0 0 0,
  m 115 0 0 0 0 0 0 0 0 3 0 0 (-1) 0 0 2,
  m (-95) 20 0 0 0 0 0 0 6 (-10) 0 0 0 0 0 (-2),
  m 24 91 0 0 0 0 0 0 0 0 0 3 0 0 0 1,
  m (-115) 0 1 1 2 (-2) 0 0 0 0 0 0 0 0 0 0,
  m (-112) 0 0 1 2 (-2) (-1) 0 0 0 0 0 0 0 0 0,
  m (-111) 0 1 0 0 1 (-1) 0 0 0 0 0 0 0 0 0,
  m (-111) 0 1 2 0 (-2) (-1) 0 0 0 0 0 0 0 0 0,
  m 16 95 0 0 0 0 1 0 0 0 0 0 1 0 0 0,
  m (-111) 0 2 0 2 (-4) 0 0 0 0 0 0 0 0 0 0,
  m 111 0 0 0 0 0 0 0 7 (-7) 0 0 0 0 0 0,
  m 20 (-91) 0 0 0 0 0 0 1 1 0 0 0 0 0 1,
  m (-72) (-40) 0 0 0 0 0 0 0 0 3 0 0 0 0 2,
  m (-111) 0 1 1 (-2) (-2) 0 0 0 0 0 0 0 0 0 0,
  m (-111) 0 0 0 0 0 1 0 1 (-1) 0 0 0 0 0 0,
  m 107 0 2 (-1) (-2) (-2) (-2) 0 0 0 0 0 0 0 0 0,
  m (-107) 0 2 0 2 4 2 0 0 0 0 0 0 0 0 0,
  m 0 (-107) 0 0 0 0 0 0 3 (-6) 0 0 0 0 0 (-2),
  m 107 0 0 0 0 0 0 0 0 3 (-3) 0 0 0 0 0,
  m 76 (-32) 0 0 0 0 0 0 0 1 (-4) 0 0 0 0 (-2),
  m 107 0 0 0 2 (-2) 1 0 (-4) 4 0 0 0 0 0 0,
  m (-107) 0 0 1 (-2) (-2) 0 0 0 0 0 0 0 0 0 0,
  m 107 0 0 0 2 (-3) 1 0 0 0 0 0 0 0 0 0,
  m (-84) (-24) 0 0 0 0 1 0 (-3) 5 0 0 0 0 0 0,
  m 0 (-103) 0 0 3 0 3 0 0 0 0 0 0 0 0 0,
  m 103 0 2 1 2 2 2 0 0 0 0 0 0 0 0 0,
  m (-103) 0 3 0 2 (-4) 2 0 0 0 0 0 0 0 0 0,
  m (-24) 80 0 0 0 0 0 0 0 1 0 0 (-2) 0 0 0,
  m 20 84 0 0 1 (-1) 1 0 (-1) 0 0 0 0 0 0 0,
  m (-103) 0 3 0 (-2) (-2) (-1) 0 0 0 0 0 0 0 0 0,
  m (-103) 0 0 0 0 0 3 0 0 0 0 0 0 0 0 0,
  m (-99) 0 2 0 0 1 0 0 0 0 0 0 0 0 0 0,
  m 24 76 0 0 0 0 0 0 2 (-1) 0 0 0 0 0 0,
  m (-99) 0 0 0 0 0 0 0 0 7 (-8) 3 0 0 0 2,
  m (-16) 84 0 0 0 0 0 0 0 2 0 (-2) 0 0 0 1,
  m (-99) 0 0 0 0 0 0 0 0 1 (-1) 0 0 0 0 0,
  m (-64) 36 0 0 0 0 0 0 0 4 (-7) 0 0 0 0 (-2),
  m 99 0 1 (-2) 0 2 0 0 0 0 0 0 0 0 0 0,
  m 36 (-64) 0 0 1 (-1) 0 0 0 (-1) 0 (-2) 5 0 0 0,
  m (-95) 0 3 0 2 2 1 0 0 0 0 0 0 0 0 0,
  m (-95) 0 1 (-1) 2 4 2 0 0 0 0 0 0 0 0 0,
  m 0 95 0 0 1 (-1) 0 0 0 (-1) 0 (-1) 1 0 0 0,
  m 64 32 1 0 0 (-1) 0 0 0 (-3) 4 0 0 0 0 0,
  m 84 12 0 0 0 0 0 0 0 5 (-8) 3 0 0 0 0,
  m 0 (-95) 0 0 0 0 0 0 7 (-10) 0 0 0 0 0 (-2),
  m 20 76 0 0 0 0 0 0 6 (-8) 0 0 0 0 0 (-1),
  m (-95) 0 3 0 (-2) 0 0 0 0 0 0 0 0 0 0 0,
  m 95 0 1 0 4 0 2 0 0 0 0 0 0 0 0 0,
  m (-95) 0 1 (-1) (-2) 2 (-2) 0 0 0 0 0 0 0 0 0,
  m 0 92 1 0 0 (-1) (-1) 0 (-3) 4 0 0 0 0 0 0,
  m 91 0 1 1 2 2 1 0 0 0 0 0 0 0 0 0,
  m 91 0 3 0 (-2) (-6) (-2) 0 0 0 0 0 0 0 0 0,
  m 40 52 1 (-2) 2 (-2) 1 0 0 0 0 0 0 0 0 0,
  m (-91) 0 5 0 2 0 2 0 0 0 0 0 0 0 0 0,
  m (-56) 36 0 0 0 0 0 0 3 (-9) 4 0 0 0 0 (-2),
  m 44 (-48) 0 0 1 (-1) 1 0 8 (-14) 0 0 0 0 0 0,
  m (-91) 0 2 0 0 (-6) 0 0 0 0 0 0 0 0 0 0,
  m (-91) 0 3 1 0 0 0 0 0 0 0 0 0 0 0 0,
  m (-36) (-56) 0 0 1 (-1) 1 0 3 (-6) 0 0 0 0 0 0,
  m 91 0 1 0 0 2 2 0 0 0 0 0 0 0 0 0,
  m (-88) 0 1 2 0 (-2) 1 0 0 0 0 0 0 0 0 0,
  m (-88) 0 2 1 0 0 (-1) 0 0 0 0 0 0 0 0 0,
  m 60 (-28) 0 0 0 0 1 0 0 8 (-15) 0 0 0 0 0,
  m 88 0 0 2 (-2) (-2) (-1) 0 0 0 0 0 0 0 0 0,
  m 56 32 0 0 0 0 0 0 0 8 (-15) 0 0 0 0 (-2),
  m 0 88 0 0 0 0 0 0 0 4 (-7) 0 0 0 0 0,
  m 36 (-52) 0 0 1 (-1) 1 0 0 (-3) 4 0 0 0 0 0,
  m (-52) 36 0 0 0 0 0 0 3 (-5) 4 0 0 0 0 2,
  m 52 36 0 0 0 0 0 0 0 6 0 0 0 0 0 2,
  m 64 (-24) 0 0 0 0 0 0 0 4 (-5) 0 0 0 0 0,
  m 88 0 1 (-1) 0 (-4) 0 0 0 0 0 0 0 0 0 0,
  m 88 0 1 (-1) 2 0 0 0 0 0 0 0 0 0 0 0,
  m 88 0 1 (-1) 2 (-1) 2 0 0 0 0 0 0 0 0 0,
  m 84 0 0 1 0 (-2) (-2) 0 0 0 0 0 0 0 0 0,
  m (-68) (-16) 2 0 0 (-2) 1 0 (-6) 8 0 0 0 0 0 0,
  m 84 0 1 2 2 0 2 0 0 0 0 0 0 0 0 0,
  m 56 28 0 0 1 (-1) 0 0 (-8) 12 0 0 0 0 0 0,
  m (-16) 68 0 0 0 0 0 0 5 (-5) 0 0 0 0 0 (-1),
  m 16 68 0 0 0 0 0 0 1 2 0 0 0 0 0 2,
  m 72 (-12) 0 0 0 0 0 0 0 3 0 (-3) 0 0 0 0,
  m 64 (-20) 0 0 0 0 0 0 5 (-7) 0 0 0 0 0 0,
  m (-83) 0 2 0 (-2) 0 2 0 0 0 0 0 0 0 0 0,
  m (-80) 0 2 1 0 0 1 0 0 0 0 0 0 0 0 0,
  m 80 0 2 2 0 (-2) 0 0 0 0 0 0 0 0 0 0,
  m (-80) 0 4 0 0 (-2) 0 0 0 0 0 0 0 0 0 0,
  m 68 (-12) 0 0 0 0 0 0 3 0 0 0 0 0 0 2,
  m (-32) 48 0 0 0 0 0 0 0 5 (-9) 0 0 0 0 (-2),
  m 0 (-80) 0 0 0 0 0 0 0 2 0 0 (-1) 0 0 2,
  m 28 52 0 0 0 0 0 0 0 5 (-9) 0 0 0 0 0]

private def tableX0_3 : List Term := [
  m 36 (-44) 0 0 0 0 0 0 0 3 0 (-3) 0 0 0 2,
  m (-36) (-44) 0 0 0 0 0 0 0 0 0 0 0 0 2 1,
  m (-80) 0 0 1 2 0 0 0 0 0 0 0 0 0 0 0,
  m 79 0 1 1 0 (-2) (-2) 0 0 0 0 0 0 0 0 0,
  m 74 (-4) 0 0 2 (-2) 3 0 0 0 0 0 0 0 0 0,
  m (-76) 0 0 0 0 0 1 0 (-1) 1 0 0 0 0 0 0,
  m 0 76 0 0 0 0 1 0 (-2) 3 0 0 0 0 0 0,
  m 16 60 0 0 0 0 1 0 0 0 0 (-1) 0 0 0 0,
  m (-76) 0 1 0 0 1 1 0 0 0 0 0 0 0 0 0,
  m (-76) 0 3 0 0 (-4) (-1) 0 0 0 0 0 0 0 0 0,
  m 76 0 2 1 (-2) (-4) (-1) 0 0 0 0 0 0 0 0 0,
  m (-76) 0 2 (-1) (-2) (-4) (-2) 0 0 0 0 0 0 0 0 0,
  m 76 0 1 0 (-4) 2 (-1) 0 0 0 0 0 0 0 0 0,
  m 12 64 0 0 1 (-1) 0 0 0 (-1) 0 2 0 0 0 0,
  m 76 0 1 0 0 (-2) 0 0 (-3) 3 0 0 0 0 0 0,
  m 0 76 0 0 1 (-1) 1 0 0 (-9) 15 0 0 0 0 0,
  m 76 0 0 0 0 0 0 0 8 (-8) 0 0 0 0 0 0,
  m 64 (-12) 0 0 0 0 0 0 7 (-11) 0 0 0 0 0 (-2),
  m 16 (-60) 0 0 0 0 0 0 2 0 0 0 0 0 0 1,
  m 28 (-48) 0 0 0 0 0 0 0 5 (-5) 0 0 0 0 2,
  m 76 0 0 0 0 0 0 0 0 3 (-1) 0 0 0 0 2,
  m 0 (-76) 0 0 0 0 0 0 0 2 0 0 1 0 0 2,
  m 32 44 0 0 0 0 0 0 0 1 0 1 0 0 0 0,
  m (-76) 0 1 1 2 0 0 0 0 0 0 0 0 0 0 0,
  m 72 0 4 0 2 (-2) 1 0 0 0 0 0 0 0 0 0,
  m 72 0 1 (-1) (-2) 0 0 0 0 0 0 0 0 0 0 0,
  m 48 (-24) 0 0 0 0 0 0 0 2 0 (-2) 5 0 0 2,
  m (-72) 0 0 1 2 (-4) 1 0 0 0 0 0 0 0 0 0,
  m 72 0 0 0 1 (-1) 1 0 (-2) 2 0 0 0 0 0 0,
  m (-72) 0 0 0 2 1 0 0 0 0 0 0 0 0 0 0,
  m (-72) 0 3 0 (-2) 0 (-2) 0 0 0 0 0 0 0 0 0,
  m (-71) 0 1 (-1) 0 0 2 0 0 0 0 0 0 0 0 0,
  m (-68) 0 1 0 (-2) (-2) 1 0 0 0 0 0 0 0 0 0,
  m (-68) 0 0 2 0 (-2) 1 0 0 0 0 0 0 0 0 0,
  m 68 0 0 1 (-4) 2 (-2) 0 0 0 0 0 0 0 0 0,
  m 68 0 0 1 2 4 2 0 0 0 0 0 0 0 0 0,
  m 68 0 1 0 (-2) 4 (-1) 0 0 0 0 0 0 0 0 0,
  m (-68) 0 0 2 2 (-2) 0 0 0 0 0 0 0 0 0 0,
  m 56 (-12) 0 0 0 0 0 0 5 (-3) 0 0 0 0 0 2,
  m (-68) 0 0 0 0 0 0 0 0 3 (-5) 0 0 0 0 (-2),
  m (-68) 0 0 0 0 0 0 0 0 2 0 (-4) 0 0 0 (-2),
  m 20 48 0 0 0 0 0 0 0 3 0 2 (-5) 0 0 2,
  m (-44) (-24) 0 0 0 0 0 0 0 2 0 2 (-5) 0 0 2,
  m (-68) 0 1 1 (-2) 0 0 0 0 0 0 0 0 0 0 0,
  m 64 0 2 0 0 (-2) 1 0 (-3) 3 0 0 0 0 0 0,
  m 64 0 3 0 0 (-2) (-1) 0 0 0 0 0 0 0 0 0,
  m (-64) 0 2 (-1) 2 2 1 0 0 0 0 0 0 0 0 0,
  m 64 0 0 1 (-2) (-4) (-1) 0 0 0 0 0 0 0 0 0,
  m (-64) 0 1 0 (-2) (-3) (-1) 0 0 0 0 0 0 0 0 0,
  m (-12) 52 0 0 0 0 0 0 6 (-6) 0 0 0 0 0 (-1),
  m (-12) (-52) 0 0 0 0 0 0 2 (-2) 0 0 0 0 0 1,
  m (-20) (-44) 0 0 0 0 0 0 2 (-3) 0 0 0 0 0 (-2),
  m (-44) 20 0 0 0 0 0 0 0 11 0 0 0 0 0 2,
  m (-44) 20 0 0 0 0 0 0 0 6 (-15) 0 0 0 0 (-2),
  m 24 (-40) 0 0 0 0 0 0 0 4 (-8) 0 0 0 0 (-2),
  m (-20) (-44) 0 0 0 0 0 0 0 3 0 1 0 0 0 2,
  m (-16) (-48) 0 0 0 0 0 0 0 3 0 (-2) 0 0 0 0,
  m (-64) 0 1 0 0 (-6) 0 0 0 0 0 0 0 0 0 0,
  m 40 (-24) 0 0 0 0 1 0 3 (-7) 4 0 0 0 0 0,
  m (-64) 0 1 0 (-2) (-4) 0 0 0 0 0 0 0 0 0 0,
  m 64 0 0 1 0 (-4) (-1) 0 0 0 0 0 0 0 0 0,
  m (-63) 0 2 0 (-2) 2 (-2) 0 0 0 0 0 0 0 0 0,
  m (-60) 0 0 1 (-2) 1 (-1) 0 0 0 0 0 0 0 0 0,
  m 0 60 0 0 2 (-2) 2 0 (-8) 11 0 0 0 0 0 0,
  m (-60) 0 2 0 (-2) (-3) (-2) 0 0 0 0 0 0 0 0 0,
  m (-60) 0 4 0 2 2 2 0 0 0 0 0 0 0 0 0,
  m 12 48 0 0 0 0 0 0 7 (-9) 0 0 0 0 0 (-1),
  m 48 (-12) 0 0 0 0 0 0 4 (-7) 0 0 0 0 0 (-1),
  m 12 48 0 0 0 0 0 0 3 (-3) 0 0 0 0 0 1,
  m 12 48 0 0 0 0 0 0 0 5 0 (-2) 0 0 0 2,
  m 60 0 0 0 0 0 0 0 0 2 0 0 (-2) 0 0 0,
  m 0 60 0 0 0 0 0 0 0 0 0 0 3 0 0 2,
  m 24 (-36) 2 0 0 (-2) 0 0 0 (-2) 0 4 (-3) 0 0 0,
  m 24 (-36) 0 0 0 0 0 0 0 6 (-6) 0 0 0 0 2,
  m 36 24 0 0 0 0 0 0 0 6 (-11) 0 0 0 0 0,
  m 44 16 0 0 0 0 0 0 0 2 0 (-4) 0 0 0 0,
  m (-60) 0 0 0 0 3 0 0 0 0 0 0 0 0 0 0,
  m (-60) 0 2 0 0 (-2) 0 0 0 (-2) 0 3 (-1) 0 0 0,
  m 60 0 2 (-1) 0 (-4) 0 0 0 0 0 0 0 0 0 0,
  m 0 60 0 0 1 (-1) 2 0 0 (-2) 2 0 0 0 0 0,
  m 59 0 0 0 0 0 1 0 0 1 0 (-1) 0 0 0 0,
  m (-56) 0 3 0 0 (-4) 1 0 0 0 0 0 0 0 0 0,
  m (-44) (-12) 2 0 0 (-2) (-1) 0 (-6) 8 0 0 0 0 0 0,
  m 56 0 1 2 (-2) (-2) (-1) 0 0 0 0 0 0 0 0 0,
  m 0 56 0 0 1 (-1) 1 0 0 (-1) 0 (-1) 1 0 0 0,
  m (-56) 0 3 1 0 (-4) 0 0 0 0 0 0 0 0 0 0,
  m (-56) 0 3 0 0 (-6) 0 0 0 0 0 0 0 0 0 0,
  m 16 40 0 0 0 0 0 1 0 (-4) 0 0 0 0 0 (-2),
  m 44 (-12) 0 0 0 0 0 0 4 (-4) 0 0 0 0 0 2,
  m 56 0 0 0 0 0 0 0 0 6 0 0 0 0 0 0,
  m (-56) 0 0 0 0 0 0 0 0 1 0 0 1 0 0 2,
  m 20 (-36) 0 0 0 0 0 0 0 1 (-5) 0 0 0 0 (-2),
  m (-36) (-20) 0 0 0 0 1 0 (-3) 7 (-4) 0 0 0 0 0,
  m (-56) 0 0 0 4 (-4) 1 0 0 0 0 0 0 0 0 0,
  m 55 0 1 1 0 (-2) 2 0 0 0 0 0 0 0 0 0,
  m 52 0 1 0 0 (-4) (-2) 0 0 0 0 0 0 0 0 0,
  m (-52) 0 1 1 0 (-4) 1 0 0 0 0 0 0 0 0 0,
  m 52 0 0 0 0 0 1 0 3 (-5) 0 2 0 0 0 0,
  m 52 0 0 1 0 (-1) 0 0 0 0 0 0 0 0 0 0,
  m 16 36 0 0 1 (-1) 0 0 0 (-1) 0 0 2 0 0 0,
  m (-52) 0 0 0 2 (-2) 0 0 (-3) 3 0 0 0 0 0 0,
  m 12 40 0 0 0 0 0 0 5 (-6) 0 0 0 0 0 2,
  m (-52) 0 1 0 0 (-2) 0 0 0 (-2) 0 3 0 0 0 0,
  m (-52) 0 1 0 (-2) (-2) (-2) 0 0 (-2) 0 2 0 0 0 0,
  m (-52) 0 0 0 2 6 2 0 0 0 0 0 0 0 0 0,
  m 0 (-52) 0 0 1 (-1) 1 0 2 (-4) 0 (-3) 0 0 0 0,
  m 52 0 0 0 0 0 0 0 9 (-9) 0 0 0 0 0 0,
  m (-52) 0 0 0 0 0 0 0 0 1 1 0 0 0 0 2,
  m 52 0 1 0 (-4) 0 0 0 0 0 0 0 0 0 0 0,
  m (-52) 0 2 0 (-2) (-4) 0 0 0 0 0 0 0 0 0 0,
  m 0 (-52) 1 0 1 0 1 0 0 0 0 0 0 0 0 0,
  m 52 0 1 1 0 0 2 0 0 0 0 0 0 0 0 0,
  m 52 0 0 0 0 1 2 0 0 0 0 0 0 0 0 0,
  m (-51) 0 1 0 0 2 (-2) 0 0 0 0 0 0 0 0 0,
  m (-51) 0 1 0 2 0 3 0 0 0 0 0 0 0 0 0,
  m 48 0 0 1 0 2 2 0 0 0 0 0 0 0 0 0,
  m 48 0 0 0 2 2 (-1) 0 0 0 0 0 0 0 0 0,
  m (-16) 32 0 0 0 0 1 0 0 2 (-4) 0 0 0 0 0,
  m (-48) 0 1 (-2) 2 (-2) 2 0 0 0 0 0 0 0 0 0,
  m (-48) 0 0 1 (-2) (-1) (-2) 0 0 0 0 0 0 0 0 0,
  m 48 0 3 (-1) 2 (-2) 2 0 0 0 0 0 0 0 0 0,
  m 48 0 4 0 0 (-4) 0 0 0 0 0 0 0 0 0 0,
  m (-48) 0 3 (-1) 2 2 2 0 0 0 0 0 0 0 0 0,
  m (-12) (-36) 0 0 1 (-1) 1 0 0 (-1) 0 3 0 0 0 0,
  m (-32) 16 0 0 1 (-1) 1 0 0 (-1) 0 0 3 0 0 0,
  m 32 (-16) 0 0 0 0 0 0 4 (-2) 0 0 0 0 0 2,
  m (-12) (-36) 0 0 0 0 0 0 3 (-5) 0 0 0 0 0 1,
  m 16 32 0 0 0 0 0 0 0 7 (-13) 0 0 0 0 (-2),
  m 20 (-28) 0 0 0 0 0 0 0 5 (-7) 0 0 0 0 0,
  m (-20) (-28) 0 0 0 0 0 0 0 1 0 3 0 0 0 2,
  m (-36) 12 0 0 0 0 0 0 0 0 0 4 0 0 0 2,
  m (-48) 0 0 0 0 0 0 0 0 0 0 2 (-5) 0 0 2,
  m 32 (-16) 0 0 0 0 0 0 0 0 0 0 3 0 0 1,
  m 48 0 1 (-1) 0 4 0 0 0 0 0 0 0 0 0 0,
  m (-48) 0 2 1 0 2 0 0 0 0 0 0 0 0 0 0,
  m (-48) 0 2 0 0 (-2) (-1) 0 0 (-2) 0 0 5 0 0 0,
  m (-48) 0 3 0 0 2 1 0 0 0 0 0 0 0 0 0,
  m 0 (-48) 1 0 1 (-2) 1 0 0 0 0 0 0 0 0 0,
  m 48 0 1 1 0 (-4) (-1) 0 0 0 0 0 0 0 0 0,
  m (-48) 0 0 0 2 (-2) 2 0 (-3) 3 0 0 0 0 0 0,
  m (-48) 0 1 0 0 (-1) 2 0 0 0 0 0 0 0 0 0,
  m 0 48 0 0 2 (-2) 2 0 (-5) 6 0 0 0 0 0 0,
  m 44 0 0 0 0 0 1 0 0 (-1) 0 1 0 0 0 0,
  m (-32) (-12) 0 0 1 (-1) (-1) 0 0 0 (-2) 0 0 0 0 0,
  m (-44) 0 0 1 (-2) 0 0 0 0 0 0 0 0 0 0 0,
  m 20 (-24) 0 0 0 0 0 0 0 9 (-17) 0 0 0 0 0,
  m 12 32 0 0 0 0 0 0 5 (-10) 0 0 0 0 0 (-2),
  m 32 (-12) 0 0 0 0 0 0 1 (-3) 0 0 0 0 0 0,
  m 44 0 3 (-1) (-2) (-1) (-2) 0 0 0 0 0 0 0 0 0,
  m (-44) 0 1 (-1) 0 (-3) 0 0 0 0 0 0 0 0 0 0,
  m 44 0 0 0 2 (-2) 1 0 (-2) 2 0 0 0 0 0 0,
  m 20 (-24) 0 0 0 0 0 0 8 (-13) 0 0 0 0 0 1,
  m (-20) 24 0 0 0 0 0 0 1 0 0 0 0 0 0 2,
  m 0 44 0 0 0 0 0 0 0 6 (-11) 0 0 0 0 (-2),
  m 0 44 0 0 0 0 0 0 0 5 (-8) 0 0 0 0 0,
  m 44 0 0 0 0 0 0 0 0 1 (-3) 0 0 0 0 (-2),
  m (-44) 0 1 2 0 (-4) 0 0 0 0 0 0 0 0 0 0,
  m (-44) 0 0 1 0 4 0 0 0 0 0 0 0 0 0 0,
  m (-44) 0 3 0 2 (-2) 0 0 0 0 0 0 0 0 0 0,
  m 44 0 1 (-1) 2 (-4) 1 0 0 0 0 0 0 0 0 0,
  m 44 0 2 0 2 2 0 0 0 0 0 0 0 0 0 0,
  m 40 0 2 0 2 0 (-1) 0 0 0 0 0 0 0 0 0,
  m (-40) 0 2 1 0 (-4) (-1) 0 0 0 0 0 0 0 0 0,
  m (-40) 0 2 1 0 (-4) 1 0 0 0 0 0 0 0 0 0,
  m (-40) 0 1 0 4 (-4) 2 0 0 0 0 0 0 0 0 0,
  m 40 0 2 0 (-4) 0 (-1) 0 0 0 0 0 0 0 0 0,
  m 24 16 2 0 0 (-2) (-1) 0 0 (-5) 6 0 0 0 0 0,
  m 0 (-40) 0 0 3 0 2 0 0 0 0 0 0 0 0 0,
  m 12 28 2 0 (-1) (-1) (-1) 0 0 (-1) 0 3 0 0 0 0,
  m 40 0 1 2 (-2) (-4) (-2) 0 0 0 0 0 0 0 0 0,
  m (-40) 0 0 0 4 (-1) 2 0 0 0 0 0 0 0 0 0,
  m 40 0 0 0 0 0 0 0 0 7 (-13) 0 0 0 0 0,
  m (-12) (-28) 0 0 0 0 0 0 0 4 (-8) 1 5 0 0 (-2),
  m 40 0 5 0 2 (-2) 2 0 0 0 0 0 0 0 0 0,
  m 0 (-40) 0 0 0 0 0 0 9 (-12) 0 0 0 0 0 (-2),
  m (-40) 0 0 0 0 0 0 0 5 (-9) 0 0 0 0 0 (-2),
  m 0 (-40) 0 0 0 0 0 0 4 (-4) 0 0 0 0 0 1,
  m 0 (-40) 0 0 0 0 0 0 3 (-1) 0 0 0 0 0 1,
  m 20 (-20) 0 0 0 0 0 0 2 (-4) 0 0 0 0 0 0,
  m (-40) 0 0 0 0 0 0 0 1 (-2) 0 0 0 0 0 1,
  m (-40) 0 0 0 0 0 0 0 0 5 (-3) 0 0 0 0 2,
  m 40 0 0 0 0 0 0 0 3 (-5) 0 2 0 0 0 0,
  m 40 0 1 1 (-2) 2 0 0 0 0 0 0 0 0 0 0,
  m 40 0 2 0 0 4 0 0 0 0 0 0 0 0 0 0,
  m 40 0 0 0 0 3 1 0 0 0 0 0 0 0 0 0,
  m 40 0 4 0 (-2) (-2) (-1) 0 0 0 0 0 0 0 0 0,
  m 0 40 0 0 1 (-1) 2 0 0 (-1) 0 2 0 0 0 0,
  m (-20) (-16) 0 0 0 0 2 0 0 (-1) 2 0 0 0 0 0,
  m 36 0 1 0 0 (-3) 1 0 0 0 0 0 0 0 0 0,
  m 36 0 1 (-2) 0 0 1 0 0 0 0 0 0 0 0 0,
  m 24 (-12) 0 2 (-2) 0 (-1) 0 0 0 0 0 0 0 0 0,
  m 20 (-16) 2 0 (-1) (-1) (-1) 0 0 3 (-7) 0 0 0 0 0,
  m 0 36 0 0 2 0 2 0 0 (-4) 8 (-3) 0 0 0 0,
  m 0 36 0 0 2 0 2 0 0 4 (-8) 3 0 0 0 0,
  m (-36) 0 2 1 (-2) (-2) (-1) 0 0 0 0 0 0 0 0 0,
  m 12 24 1 0 1 0 0 0 0 0 0 0 0 0 0 0,
  m (-36) 0 2 (-2) 2 0 2 0 0 0 0 0 0 0 0 0,
  m (-36) 0 0 3 0 (-2) 0 0 0 0 0 0 0 0 0 0,
  m (-36) 0 2 (-1) 0 (-1) 0 0 0 0 0 0 0 0 0 0,
  m (-36) 0 1 3 0 (-2) 0 0 0 0 0 0 0 0 0 0]

private def tableX0_4 : List Term := [
  m 36 0 1 (-1) (-2) (-3) (-2) 0 0 0 0 0 0 0 0 0,
  m 0 36 0 0 1 (-1) 1 0 (-2) 3 0 0 0 0 0 0,
  m 0 36 0 0 0 0 0 0 7 (-7) 0 0 0 0 0 (-1),
  m 0 36 0 0 0 0 0 0 6 (-7) 0 0 0 0 0 0,
  m (-36) 0 0 0 0 0 0 0 6 (-9) 0 0 0 0 0 (-1),
  m 0 36 0 0 0 0 0 0 4 (-3) 0 0 0 0 0 2,
  m 12 (-24) 0 0 0 0 0 0 1 (-2) 0 0 0 0 0 (-2),
  m (-24) 12 0 0 0 0 0 0 0 6 (-5) 0 0 0 0 2,
  m (-36) 0 0 0 0 0 0 0 0 5 0 (-3) 0 0 0 2,
  m 0 36 0 0 0 0 0 0 0 3 (-2) 0 0 0 0 0,
  m 36 0 0 0 0 0 0 0 0 3 (-6) 0 0 0 0 (-1),
  m 24 (-12) 0 0 0 0 0 0 0 2 (-5) 0 0 0 0 (-2),
  m 0 (-36) 0 0 1 (-1) 1 0 0 1 0 0 0 0 0 0,
  m (-36) 0 1 (-2) (-2) 0 (-2) 0 0 0 0 0 0 0 0 0,
  m 36 0 2 0 0 2 2 0 0 0 0 0 0 0 0 0,
  m 36 0 0 1 0 (-2) 2 0 0 0 0 0 0 0 0 0,
  m (-36) 0 0 0 2 0 (-2) 0 0 0 0 0 0 0 0 0,
  m 36 0 0 0 2 (-2) (-2) 0 0 0 0 0 0 0 0 0,
  m (-13) 22 0 0 1 (-1) 2 0 0 (-1) 0 (-2) 5 0 0 0,
  m (-32) 0 0 0 0 0 1 0 3 (-5) 0 0 0 0 0 0,
  m (-32) 0 1 1 0 2 (-1) 0 0 0 0 0 0 0 0 0,
  m 32 0 4 0 0 0 (-1) 0 0 0 0 0 0 0 0 0,
  m (-20) (-12) 0 0 0 0 1 0 0 (-8) 15 0 0 0 0 0,
  m 32 0 0 2 2 0 1 0 0 0 0 0 0 0 0 0,
  m 12 20 2 0 0 (-2) 1 0 0 (-6) 8 0 0 0 0 0,
  m (-32) 0 3 (-1) 2 0 1 0 0 0 0 0 0 0 0 0,
  m 32 0 0 0 2 0 2 0 1 (-1) 0 0 0 0 0 0,
  m (-32) 0 0 0 2 0 2 0 (-1) 1 0 0 0 0 0 0,
  m (-32) 0 2 0 2 (-1) 1 0 0 0 0 0 0 0 0 0,
  m 0 (-32) 2 0 (-1) (-1) (-2) 0 0 (-1) 0 2 0 0 0 0,
  m 32 0 1 2 2 (-2) 1 0 0 0 0 0 0 0 0 0,
  m 32 0 2 2 2 (-2) 2 0 0 0 0 0 0 0 0 0,
  m 12 (-20) 0 0 2 (-2) 0 0 0 (-9) 13 0 0 0 0 0,
  m (-32) 0 3 0 2 (-1) 2 0 0 0 0 0 0 0 0 0,
  m 0 (-32) 1 0 0 (-2) 0 0 20 (-21) 0 0 0 0 0 0,
  m 32 0 0 0 2 (-2) 1 0 0 (-2) 0 0 2 0 0 0,
  m 0 32 0 0 2 (-2) 1 0 0 (-8) 11 0 0 0 0 0,
  m 0 (-32) 0 0 1 (-1) 1 0 0 (-1) 0 0 0 2 0 0,
  m 0 (-32) 0 0 1 (-1) 1 0 0 (-1) 0 (-1) 2 0 0 0,
  m 20 12 0 0 1 (-1) 1 0 0 (-1) 0 (-2) 4 0 0 0,
  m 20 12 0 0 0 0 0 1 0 (-4) 0 0 0 0 0 0,
  m 32 0 0 0 0 0 0 0 8 (-12) 0 0 0 0 0 0,
  m (-32) 0 0 0 0 0 0 0 5 (-5) 0 0 0 0 0 2,
  m 0 32 0 0 0 0 0 0 5 (-6) 0 0 0 0 0 0,
  m 32 0 0 0 0 0 0 0 2 (-6) 0 0 0 0 0 (-2),
  m 0 32 0 0 0 0 0 0 0 8 (-15) 0 0 0 0 (-1),
  m 0 (-32) 0 0 0 0 0 0 0 5 (-2) 0 0 0 0 2,
  m (-20) 12 0 0 0 0 0 0 0 5 (-8) 0 0 0 0 (-2),
  m 32 0 0 0 0 0 0 0 0 4 (-4) 0 0 0 0 0,
  m 12 20 0 0 0 0 0 0 0 4 (-8) 0 0 0 0 0,
  m 12 (-20) 0 0 0 0 0 0 0 2 (-6) 0 0 0 0 (-2),
  m 0 32 0 0 0 0 0 0 0 0 0 0 1 0 0 2,
  m (-16) 16 0 0 0 0 0 0 0 2 2 0 0 0 0 2,
  m (-16) 16 0 0 0 0 0 0 0 1 0 (-4) 0 0 0 0,
  m 0 32 0 0 2 (-2) 1 (-1) 0 2 0 0 0 0 0 0,
  m (-32) 0 0 0 4 (-2) 0 0 0 0 0 0 0 0 0 0,
  m 32 0 0 0 0 1 (-2) 0 0 0 0 0 0 0 0 0,
  m 28 0 2 0 (-4) 2 (-2) 0 0 0 0 0 0 0 0 0,
  m (-28) 0 0 0 0 4 2 0 0 0 0 0 0 0 0 0,
  m 28 0 1 0 0 4 (-1) 0 0 0 0 0 0 0 0 0,
  m 28 0 1 (-2) 0 (-2) (-1) 0 0 0 0 0 0 0 0 0,
  m 28 0 1 1 0 (-1) 1 0 0 0 0 0 0 0 0 0,
  m 16 12 1 0 0 (-1) 1 0 0 (-3) 4 0 0 0 0 0,
  m 28 0 3 1 2 0 1 0 0 0 0 0 0 0 0 0,
  m (-28) 0 1 1 2 1 1 0 0 0 0 0 0 0 0 0,
  m (-12) (-16) 0 0 0 0 1 0 0 (-9) 17 0 0 0 0 0,
  m 28 0 1 1 4 (-2) 2 0 0 0 0 0 0 0 0 0,
  m (-28) 0 4 0 2 (-4) 2 0 0 0 0 0 0 0 0 0,
  m (-28) 0 0 2 0 2 0 0 0 0 0 0 0 0 0 0,
  m 28 0 1 0 2 (-3) 0 0 0 0 0 0 0 0 0 0,
  m 28 0 3 0 (-2) (-2) 0 0 0 0 0 0 0 0 0 0,
  m 28 0 2 (-2) 0 0 0 0 0 0 0 0 0 0 0 0,
  m 28 0 1 1 0 (-3) 0 0 0 0 0 0 0 0 0 0,
  m 28 0 1 0 2 3 2 0 0 0 0 0 0 0 0 0,
  m 28 0 1 0 0 (-2) 0 0 0 1 0 (-1) 0 0 0 0,
  m (-28) 0 1 0 (-2) (-2) (-2) 0 (-3) 3 0 0 0 0 0 0,
  m 28 0 0 0 2 (-2) 1 0 0 (-2) 0 3 0 0 0 0,
  m 0 28 0 0 0 0 0 0 8 (-8) 0 0 0 0 0 (-1),
  m 0 28 0 0 0 0 0 0 8 (-10) 0 0 0 0 0 (-1),
  m 0 (-28) 0 0 0 0 0 0 4 (-2) 0 0 0 0 0 1,
  m (-28) 0 0 0 0 0 0 0 3 (-4) 0 0 0 0 0 (-1),
  m 28 0 0 0 0 0 0 0 3 (-6) 0 0 0 0 0 (-1),
  m (-12) (-16) 0 0 0 0 0 0 1 (-4) 0 0 0 0 0 (-2),
  m 0 28 0 0 0 0 0 0 0 6 0 0 0 0 0 1,
  m 0 (-28) 0 0 0 0 0 0 0 6 (-7) 0 0 0 0 2,
  m 12 (-16) 0 0 0 0 0 0 0 4 0 0 0 0 0 0,
  m (-28) 0 0 0 0 0 0 0 0 4 0 0 (-2) 0 0 2,
  m 0 (-28) 0 0 0 0 0 0 0 3 0 0 (-2) 0 0 2,
  m 0 28 0 0 0 0 0 0 0 1 0 (-1) 0 0 0 1,
  m 0 (-28) 0 0 0 0 0 0 0 1 (-6) 0 0 0 0 (-2),
  m 28 0 0 0 0 0 0 0 0 0 0 4 (-5) 0 0 2,
  m (-28) 0 0 0 0 0 0 0 0 0 0 0 0 2 0 2,
  m (-28) 0 0 0 0 0 0 0 3 (-7) 4 0 0 0 0 0,
  m 28 0 1 (-1) 2 (-2) 0 0 0 0 0 0 0 0 0 0,
  m 28 0 1 1 2 (-4) 0 0 0 0 0 0 0 0 0 0,
  m 12 (-16) 0 0 1 (-1) 1 0 0 (-1) 0 0 (-2) 0 0 0,
  m 28 0 0 0 2 4 0 0 0 0 0 0 0 0 0 0,
  m 28 0 2 (-1) (-2) 0 (-2) 0 0 0 0 0 0 0 0 0,
  m (-28) 0 0 0 1 (-1) 2 0 0 0 (-2) 0 0 0 0 0,
  m 0 (-28) 0 0 0 0 2 0 0 4 (-8) 3 0 0 0 0,
  m 0 (-28) 0 0 0 0 2 0 0 (-4) 8 (-3) 0 0 0 0,
  m 28 0 1 1 2 (-4) 2 0 0 0 0 0 0 0 0 0,
  m 0 24 0 0 2 (-2) (-1) 0 (-5) 6 0 0 0 0 0 0,
  m 24 0 1 (-2) 0 (-2) 1 0 0 0 0 0 0 0 0 0,
  m (-24) 0 0 1 0 (-4) 1 0 0 0 0 0 0 0 0 0,
  m (-24) 0 1 (-2) 2 0 1 0 0 0 0 0 0 0 0 0,
  m 24 0 0 0 2 0 2 0 0 (-1) 0 1 0 0 0 0,
  m (-24) 0 0 0 2 0 2 0 0 1 0 (-1) 0 0 0 0,
  m (-24) 0 2 0 (-4) (-2) (-1) 0 0 0 0 0 0 0 0 0,
  m 24 0 2 0 2 1 1 0 0 0 0 0 0 0 0 0,
  m 24 0 2 0 (-2) (-6) (-1) 0 0 0 0 0 0 0 0 0,
  m 0 (-24) 2 0 (-1) (-1) (-1) 0 0 (-1) 0 2 0 0 0 0,
  m (-24) 0 4 (-1) 2 0 2 0 0 0 0 0 0 0 0 0,
  m 12 (-12) 0 0 0 0 0 0 2 (-3) 0 0 0 0 0 1,
  m 24 0 5 0 0 0 0 0 0 0 0 0 0 0 0 0,
  m (-24) 0 3 0 0 (-3) 0 0 0 0 0 0 0 0 0 0,
  m (-24) 0 2 2 0 (-4) 0 0 0 0 0 0 0 0 0 0,
  m 24 0 2 2 (-2) (-4) (-2) 0 0 0 0 0 0 0 0 0,
  m (-24) 0 2 1 2 1 2 0 0 0 0 0 0 0 0 0,
  m (-24) 0 1 0 2 (-2) 2 0 0 (-2) 0 2 0 0 0 0,
  m (-24) 0 1 0 0 0 0 0 0 (-2) 0 2 0 0 0 0,
  m 24 0 1 0 0 (-2) 0 0 2 (-2) 0 0 0 0 0 0,
  m 0 (-24) 1 0 (-1) 1 (-1) 0 (-18) 17 0 0 0 0 0 0,
  m 24 0 0 2 (-2) (-4) (-2) 0 0 0 0 0 0 0 0 0,
  m (-24) 0 0 1 2 3 2 0 0 0 0 0 0 0 0 0,
  m 24 0 0 0 0 0 0 0 8 (-12) 0 0 0 0 0 (-2),
  m 24 0 0 0 0 0 0 0 8 (-16) 0 0 0 0 0 (-2),
  m 0 24 0 0 0 0 0 0 7 (-8) 0 0 0 0 0 0,
  m 0 (-24) 0 0 0 0 0 0 0 5 (-6) 0 0 0 0 2,
  m (-24) 0 0 0 0 0 0 0 0 4 (-6) 0 0 0 0 (-2),
  m 0 24 0 0 0 0 0 0 0 4 (-8) 1 5 0 0 2,
  m (-24) 0 0 0 0 0 0 0 0 2 0 (-2) 0 0 0 2,
  m 0 (-24) 0 0 0 0 0 0 0 2 (-7) 0 0 0 0 (-2),
  m 24 0 0 0 0 0 0 0 0 0 2 0 0 0 0 0,
  m (-24) 0 0 0 0 0 0 0 0 0 0 0 5 0 0 2,
  m (-24) 0 0 0 0 0 0 0 0 0 0 0 0 0 2 2,
  m 24 0 0 1 0 3 0 0 0 0 0 0 0 0 0 0,
  m 24 0 0 2 2 2 2 0 0 0 0 0 0 0 0 0,
  m 24 0 2 (-1) 2 (-1) 2 0 0 0 0 0 0 0 0 0,
  m 24 0 1 (-1) 2 2 0 0 0 0 0 0 0 0 0 0,
  m 24 0 2 1 2 (-4) 1 0 0 0 0 0 0 0 0 0,
  m (-24) 0 2 0 0 (-2) (-2) 0 (-3) 3 0 0 0 0 0 0,
  m (-24) 0 1 (-1) 0 (-4) (-1) 0 0 0 0 0 0 0 0 0,
  m 0 24 0 0 1 (-1) 2 0 0 (-1) 0 1 0 0 0 0,
  m 0 (-24) 0 0 1 (-1) 2 0 0 (-1) 0 (-1) 0 0 0 0,
  m 24 0 0 0 0 0 1 0 2 (-2) 0 0 0 0 0 0,
  m 0 20 1 0 (-1) 0 1 0 0 0 0 0 0 0 0 0,
  m 20 0 2 (-2) 0 (-2) 1 0 0 0 0 0 0 0 0 0,
  m (-20) 0 0 0 1 (-1) 2 0 0 (-1) 0 0 1 0 0 0,
  m 20 0 2 0 0 (-2) (-1) 0 (-3) 3 0 0 0 0 0 0,
  m 20 0 1 (-2) 0 0 (-1) 0 0 0 0 0 0 0 0 0,
  m 0 20 0 0 0 0 1 0 0 0 0 0 (-1) 0 0 0,
  m (-20) 0 1 0 (-2) 1 1 0 0 0 0 0 0 0 0 0,
  m 20 0 2 0 0 (-3) (-1) 0 0 0 0 0 0 0 0 0,
  m 20 0 2 1 (-2) 0 1 0 0 0 0 0 0 0 0 0,
  m 20 0 2 0 0 (-1) 1 0 0 0 0 0 0 0 0 0,
  m 20 0 2 (-1) 2 (-2) 1 0 0 0 0 0 0 0 0 0,
  m 20 0 1 (-1) (-4) 2 (-2) 0 0 0 0 0 0 0 0 0,
  m (-20) 0 1 (-2) (-2) (-2) (-1) 0 0 0 0 0 0 0 0 0,
  m 20 0 2 0 4 (-2) 1 0 0 0 0 0 0 0 0 0,
  m 20 0 0 0 2 3 1 0 0 0 0 0 0 0 0 0,
  m 20 0 0 1 4 (-2) 1 0 0 0 0 0 0 0 0 0,
  m 20 0 1 0 (-2) 0 (-2) 0 (-10) 3 0 0 0 0 0 0,
  m 0 20 1 0 1 (-2) 0 0 0 0 0 0 0 0 0 0,
  m 20 0 1 (-1) 2 1 2 0 0 0 0 0 0 0 0 0,
  m 20 0 4 1 2 0 2 0 0 0 0 0 0 0 0 0,
  m 20 0 0 0 2 (-2) 1 0 0 (-1) 0 1 0 0 0 0,
  m 20 0 1 0 0 (-1) 0 0 0 (-2) 2 0 0 0 0 0,
  m (-20) 0 0 0 2 (-2) 0 0 0 (-2) 0 2 0 0 0 0,
  m 0 (-20) 1 0 0 0 0 0 0 4 (-8) 3 0 0 0 0,
  m (-20) 0 4 (-1) (-2) (-2) (-2) 0 0 0 0 0 0 0 0 0,
  m 20 0 2 1 (-2) (-6) (-2) 0 0 0 0 0 0 0 0 0,
  m (-20) 0 2 0 0 (-2) 0 0 0 (-4) 8 (-3) 0 0 0 0,
  m 20 0 2 0 0 (-2) 0 0 (-2) 2 0 0 0 0 0 0,
  m 20 0 2 0 0 (-2) (-1) 0 0 (-2) 0 4 (-5) 0 0 0,
  m 0 (-20) 2 0 (-1) (-1) (-1) 0 0 (-1) 0 0 0 0 0 0,
  m (-20) 0 1 1 (-2) (-3) (-2) 0 0 0 0 0 0 0 0 0,
  m 0 (-20) 1 0 3 0 3 0 0 0 0 0 0 0 0 0,
  m 0 20 1 0 1 (-1) 1 0 0 (-1) 0 0 0 0 0 0,
  m 0 (-20) 1 0 0 0 0 0 0 (-4) 8 (-3) 0 0 0 0,
  m 20 0 1 0 0 0 0 0 (-1) 1 0 0 0 0 0 0,
  m 0 20 1 0 0 (-2) 0 0 17 (-16) 0 (-2) 0 0 0 0,
  m (-20) 0 1 0 (-1) (-1) (-1) 0 20 (-20) 0 0 0 0 0 0,
  m 20 0 1 0 (-2) (-2) (-2) 0 0 (-2) 0 3 0 0 0 0,
  m 20 0 0 3 (-2) (-2) (-2) 0 0 0 0 0 0 0 0 0,
  m 0 20 0 0 1 (-1) 1 0 1 (-2) 0 0 0 0 0 0,
  m 0 20 0 0 1 (-1) 1 0 (-2) 1 0 0 0 0 0 0,
  m (-20) 0 0 0 1 (-1) 0 0 0 0 0 0 0 0 0 0,
  m 0 20 0 0 0 0 0 0 9 (-9) 0 0 0 0 0 (-1),
  m 0 20 0 0 0 0 0 0 9 (-11) 0 0 0 0 0 (-1),
  m 0 20 0 0 0 0 0 0 6 (-10) 0 0 0 0 0 (-1),
  m 0 (-20) 0 0 0 0 0 0 5 (-3) 0 0 0 0 0 1,
  m (-20) 0 0 0 0 0 0 0 4 (-5) 0 0 0 0 0 (-1),
  m 0 (-20) 0 0 0 0 0 0 3 (-4) 0 0 0 0 0 (-2),
  m 0 (-20) 0 0 0 0 0 0 0 6 (-9) 0 0 0 0 0,
  m 0 (-20) 0 0 0 0 0 0 0 5 (-10) 0 0 0 0 (-2),
  m (-20) 0 0 0 0 0 0 0 0 4 0 (-4) 0 0 0 2,
  m 20 0 0 0 0 0 0 0 0 3 0 (-4) 0 0 0 0,
  m (-20) 0 0 0 0 0 0 0 0 2 0 0 0 0 0 0,
  m (-20) 0 0 0 0 0 0 0 0 2 0 (-5) 0 0 0 (-2)]

private def tableX0_5 : List Term := [
  m 0 20 0 0 0 0 0 0 0 1 0 (-2) 5 0 0 2,
  m 20 0 0 0 0 0 0 0 0 1 0 (-2) 0 0 0 (-2),
  m 0 (-20) 0 0 0 0 0 0 0 1 0 (-3) 0 0 0 (-1),
  m (-20) 0 0 0 0 0 0 0 0 1 0 (-5) 0 0 0 (-2),
  m 0 (-20) 0 0 0 0 0 0 0 0 0 0 0 2 0 1,
  m 0 20 0 0 0 0 0 0 0 0 0 0 0 1 (-2) (-2),
  m (-20) 0 0 2 0 (-4) 0 0 0 0 0 0 0 0 0 0,
  m 20 0 0 0 0 6 0 0 0 0 0 0 0 0 0 0,
  m (-20) 0 3 0 0 (-2) 0 0 0 0 0 0 0 0 0 0,
  m 20 0 2 (-1) (-2) 2 (-1) 0 0 0 0 0 0 0 0 0,
  m 0 (-20) 1 0 (-1) 1 (-1) 0 0 1 0 0 0 0 0 0,
  m (-20) 0 0 0 2 (-4) 0 0 0 0 0 0 0 0 0 0,
  m (-20) 0 1 0 0 (-1) (-1) 0 0 (-2) 2 0 0 0 0 0,
  m 20 0 0 1 0 4 1 0 0 0 0 0 0 0 0 0,
  m 20 0 1 0 0 (-6) (-1) 0 0 0 0 0 0 0 0 0,
  m 0 20 0 0 0 0 1 0 5 (-8) 0 0 0 0 0 0,
  m 20 0 0 0 4 2 2 0 0 0 0 0 0 0 0 0,
  m 20 0 3 0 0 (-2) 1 0 0 0 0 0 0 0 0 0,
  m (-20) 0 0 0 2 (-2) 2 0 0 (-2) 0 2 0 0 0 0,
  m (-20) 0 1 (-1) 0 (-2) (-2) 0 0 0 0 0 0 0 0 0,
  m (-20) 0 0 0 1 (-1) 2 0 (-5) 7 0 0 0 0 0 0,
  m (-20) 0 2 1 0 (-2) (-2) 0 0 0 0 0 0 0 0 0,
  m 20 0 0 0 0 0 1 0 0 2 (-2) 0 0 0 0 0,
  m (-20) 0 1 0 (-2) 0 2 0 0 0 0 0 0 0 0 0,
  m (-20) 0 1 (-1) 0 0 (-2) 0 0 0 0 0 0 0 0 0,
  m 20 0 1 1 (-2) 2 (-2) 0 0 0 0 0 0 0 0 0,
  m 16 0 0 0 0 0 1 0 (-2) 2 0 0 0 0 0 0,
  m 16 0 1 0 0 (-3) (-1) 0 0 0 0 0 0 0 0 0,
  m 0 (-16) 0 0 1 (-1) (-1) 0 0 (-1) 0 (-1) 0 0 0 0,
  m 16 0 2 0 (-2) (-2) 1 0 0 0 0 0 0 0 0 0,
  m 16 0 1 0 0 (-1) 1 0 0 (-1) 0 1 0 0 0 0,
  m 16 0 2 0 0 (-3) 1 0 0 0 0 0 0 0 0 0,
  m 16 0 3 0 0 2 (-1) 0 0 0 0 0 0 0 0 0,
  m 16 0 1 1 0 1 1 0 0 0 0 0 0 0 0 0,
  m (-16) 0 0 2 0 0 (-2) 0 0 0 0 0 0 0 0 0,
  m 16 0 2 (-1) 0 2 (-1) 0 0 0 0 0 0 0 0 0,
  m 16 0 1 1 0 1 (-1) 0 0 0 0 0 0 0 0 0,
  m (-16) 0 1 0 (-4) (-2) (-1) 0 0 0 0 0 0 0 0 0,
  m (-16) 0 1 (-1) (-2) (-4) (-1) 0 0 0 0 0 0 0 0 0,
  m (-16) 0 1 (-2) 2 2 1 0 0 0 0 0 0 0 0 0,
  m 16 0 3 1 2 (-2) 1 0 0 0 0 0 0 0 0 0,
  m 16 0 1 0 (-2) (-6) (-1) 0 0 0 0 0 0 0 0 0,
  m (-16) 0 2 0 4 (-4) 2 0 0 0 0 0 0 0 0 0,
  m (-4) 12 2 (-2) 2 (-2) 2 0 0 0 0 0 0 0 0 0,
  m 16 0 3 0 4 (-2) 2 0 0 0 0 0 0 0 0 0,
  m 0 16 0 0 1 (-1) 0 0 3 (-6) 0 0 0 0 0 0,
  m 16 0 1 1 2 4 2 0 0 0 0 0 0 0 0 0,
  m 16 0 0 0 2 (-3) 0 0 0 0 0 0 0 0 0 0,
  m 0 (-16) 0 0 1 1 0 0 0 1 0 0 0 0 0 0,
  m 0 (-16) 0 0 1 (-1) 0 0 (-4) 5 0 0 0 0 0 0,
  m 0 16 0 0 1 (-1) 0 0 0 (-2) 2 0 0 0 0 0,
  m 16 0 0 0 1 (-1) 0 0 0 (-1) 0 0 1 0 0 0,
  m 0 16 0 0 1 (-1) 0 0 0 (-1) 0 1 0 0 0 0,
  m (-16) 0 0 1 (-2) 4 (-1) 0 0 0 0 0 0 0 0 0,
  m 0 (-16) 1 0 0 (-2) 0 0 0 4 (-8) 3 0 0 0 0,
  m 16 0 3 0 2 1 2 0 0 0 0 0 0 0 0 0,
  m 16 0 3 0 0 (-1) 0 0 0 0 0 0 0 0 0 0,
  m 16 0 2 1 0 1 0 0 0 0 0 0 0 0 0 0,
  m 16 0 2 0 2 0 1 0 0 1 0 0 0 0 0 0,
  m (-16) 0 2 0 0 (-2) 0 0 0 (-2) 0 2 2 0 0 0,
  m 16 0 2 0 0 (-2) 0 0 0 (-4) 4 0 0 0 0 0,
  m (-16) 0 2 (-2) 2 2 2 0 0 0 0 0 0 0 0 0,
  m 16 0 1 1 (-2) (-6) (-2) 0 0 0 0 0 0 0 0 0,
  m (-16) 0 1 0 0 0 0 0 1 (-1) 0 0 0 0 0 0,
  m (-16) 0 1 0 0 0 0 0 0 (-1) 0 1 0 0 0 0,
  m (-16) 0 1 0 0 0 0 0 (-3) 3 0 0 0 0 0 0,
  m (-16) 0 1 0 0 (-2) 0 0 1 (-1) 0 0 0 0 0 0,
  m 0 (-16) 1 0 0 (-2) 0 0 0 (-4) 8 (-3) 0 0 0 0,
  m (-16) 0 1 0 0 (-2) 0 0 (-2) 2 0 0 0 0 0 0,
  m (-16) 0 0 0 2 (-2) 1 0 0 1 0 (-1) 0 0 0 0,
  m 16 0 0 0 2 (-2) 1 0 0 (-3) 0 3 0 0 0 0,
  m 16 0 0 0 2 (-2) 1 0 (-5) 5 0 0 0 0 0 0,
  m (-16) 0 0 0 1 (-1) 1 0 1 (-3) 0 0 0 0 0 0,
  m 0 16 0 0 1 (-1) 1 0 0 (-1) 0 0 0 (-1) 0 0,
  m 16 0 0 0 1 (-1) 1 0 0 (-4) 6 0 0 0 0 0,
  m 0 16 0 0 1 (-1) 1 0 (-5) 6 0 0 0 0 0 0,
  m (-16) 0 0 0 0 2 0 0 0 (-1) 0 1 0 0 0 0,
  m 0 16 0 0 0 0 0 0 8 (-9) 0 0 0 0 0 0,
  m (-16) 0 0 0 0 0 0 0 7 (-10) 0 0 0 0 0 (-1),
  m 0 (-16) 0 0 0 0 0 0 5 (-5) 0 0 0 0 0 1,
  m 0 (-16) 0 0 0 0 0 0 4 (-5) 0 0 0 0 0 (-2),
  m 0 (-16) 0 0 0 0 0 0 3 (-6) 0 0 0 0 0 0,
  m 0 16 0 0 0 0 0 0 3 (-8) 0 0 0 0 0 (-2),
  m 16 0 0 0 0 0 0 0 2 (-5) 0 0 0 0 0 (-1),
  m (-16) 0 0 0 0 0 0 0 1 1 0 0 0 0 0 0,
  m 16 0 0 0 0 0 0 0 1 (-2) 0 0 0 0 0 (-1),
  m 0 (-16) 0 0 0 0 0 0 0 7 (-8) 0 0 0 0 2,
  m 0 (-16) 0 0 0 0 0 0 0 7 (-9) 0 0 0 0 2,
  m 0 16 0 0 0 0 0 0 0 6 (-10) 0 0 0 0 (-2),
  m 0 16 0 0 0 0 0 0 0 3 0 0 0 0 0 2,
  m 16 0 0 0 0 0 0 0 0 3 (-8) 3 0 0 0 (-2),
  m 0 16 0 0 0 0 0 0 0 2 0 0 (-2) 0 0 1,
  m 16 0 0 0 0 0 0 0 0 2 (-4) 0 0 0 0 1,
  m 16 0 0 0 0 0 0 0 0 1 0 0 0 0 0 (-1),
  m 0 (-16) 0 0 0 0 0 0 0 1 0 (-1) 0 0 0 (-1),
  m 0 (-16) 0 0 0 0 0 0 0 0 0 3 (-5) 0 0 0,
  m (-16) 0 0 0 0 0 0 0 0 0 0 2 (-2) 0 0 0,
  m (-16) 0 2 1 0 (-6) 0 0 0 0 0 0 0 0 0 0,
  m (-16) 0 1 (-1) 0 1 0 0 0 0 0 0 0 0 0 0,
  m 0 (-16) 0 0 1 (-1) 0 0 (-3) 4 0 0 0 0 0 0,
  m 16 0 3 (-1) 0 2 0 0 0 0 0 0 0 0 0 0,
  m 16 0 4 0 0 2 0 0 0 0 0 0 0 0 0 0,
  m (-16) 0 0 0 2 (-2) 0 0 (-4) 4 0 0 0 0 0 0,
  m 16 0 1 0 2 (-1) 0 0 0 0 0 0 0 0 0 0,
  m 16 0 1 (-2) (-2) 2 (-1) 0 0 0 0 0 0 0 0 0,
  m 16 0 1 (-1) (-2) (-2) 0 0 0 0 0 0 0 0 0 0,
  m (-16) 0 2 0 2 (-3) 2 0 0 0 0 0 0 0 0 0,
  m (-16) 0 0 1 2 2 0 0 0 0 0 0 0 0 0 0,
  m 0 16 0 0 2 (-2) 1 0 0 (-4) 8 (-3) 0 0 0 0,
  m 0 16 0 0 2 (-2) 1 0 0 4 (-8) 3 0 0 0 0,
  m 16 0 3 0 (-2) 2 (-1) 0 0 0 0 0 0 0 0 0,
  m 16 0 2 (-1) 2 0 0 0 0 0 0 0 0 0 0 0,
  m (-16) 0 2 0 0 4 1 0 0 0 0 0 0 0 0 0,
  m 16 0 2 0 (-4) 2 (-1) 0 0 0 0 0 0 0 0 0,
  m (-16) 0 2 (-1) 0 2 1 0 0 0 0 0 0 0 0 0,
  m (-16) 0 2 (-2) 0 (-2) (-2) 0 0 0 0 0 0 0 0 0,
  m 0 (-16) 0 0 0 0 1 0 0 1 0 (-2) 0 0 0 0,
  m (-16) 0 3 0 0 0 2 0 0 0 0 0 0 0 0 0,
  m 0 (-16) 0 0 0 0 1 0 3 (-4) 0 0 0 0 0 0,
  m 16 0 0 2 0 0 2 0 0 0 0 0 0 0 0 0,
  m 16 0 0 1 2 (-4) 2 0 0 0 0 0 0 0 0 0,
  m (-15) 0 0 0 1 (-1) 2 0 (-8) 12 0 0 0 0 0 0,
  m 0 12 0 0 0 0 1 0 0 (-1) 0 2 0 0 0 0,
  m 12 0 0 0 0 0 1 0 0 (-2) 2 0 0 0 0 0,
  m 0 12 0 0 0 0 1 0 (-3) 4 0 0 0 0 0 0,
  m 12 0 1 0 0 0 (-1) 0 (-10) 3 0 0 0 0 0 0,
  m 12 0 1 0 0 0 1 0 (-10) 3 0 0 0 0 0 0,
  m 0 (-12) 0 0 0 0 2 0 0 0 0 1 0 0 0 0,
  m (-12) 0 0 1 4 (-4) 2 0 0 0 0 0 0 0 0 0,
  m (-12) 0 2 0 2 (-2) (-1) 0 0 0 0 0 0 0 0 0,
  m 12 0 1 0 2 (-4) (-1) 0 0 0 0 0 0 0 0 0,
  m (-12) 0 1 2 0 0 1 0 0 0 0 0 0 0 0 0,
  m 0 12 2 0 0 (-2) (-1) 0 0 (-6) 8 0 0 0 0 0,
  m 12 0 2 (-1) (-2) 0 1 0 0 0 0 0 0 0 0 0,
  m 12 0 2 0 0 (-2) 1 0 0 (-5) 6 0 0 0 0 0,
  m 12 0 1 0 0 (-2) (-1) 0 0 (-2) 0 2 0 0 0 0,
  m 12 0 2 0 (-1) (-1) 1 0 0 3 (-7) 0 0 0 0 0,
  m 12 0 1 0 0 (-2) 1 0 0 (-2) 0 2 0 0 0 0,
  m 12 0 1 0 0 (-1) (-1) 0 0 (-3) 4 0 0 0 0 0,
  m 12 0 0 0 0 3 2 0 0 0 0 0 0 0 0 0,
  m 12 0 2 2 0 (-2) (-1) 0 0 0 0 0 0 0 0 0,
  m 12 0 1 (-1) 2 (-3) 1 0 0 0 0 0 0 0 0 0,
  m 12 0 1 0 4 0 1 0 0 0 0 0 0 0 0 0,
  m (-12) 0 2 0 0 (-2) (-1) 0 0 (-2) 0 3 (-1) 0 0 0,
  m 12 0 2 (-1) (-2) (-2) (-1) 0 0 0 0 0 0 0 0 0,
  m 12 0 2 1 2 2 1 0 0 0 0 0 0 0 0 0,
  m 0 12 0 0 2 0 2 0 2 (-3) 0 0 0 0 0 0,
  m 0 12 0 0 2 0 2 0 (-2) 3 0 0 0 0 0 0,
  m (-12) 0 0 0 2 0 2 0 2 (-2) 0 0 0 0 0 0,
  m 12 0 0 0 2 0 2 0 (-2) 2 0 0 0 0 0 0,
  m (-12) 0 5 0 2 0 1 0 0 0 0 0 0 0 0 0,
  m 12 0 3 0 (-2) (-6) (-1) 0 0 0 0 0 0 0 0 0,
  m 12 0 1 2 2 0 1 0 0 0 0 0 0 0 0 0,
  m (-12) 0 1 (-1) 2 4 1 0 0 0 0 0 0 0 0 0,
  m 12 0 2 0 (-2) (-2) (-2) 0 0 (-2) 0 2 0 0 0 0,
  m (-12) 0 2 0 2 4 1 0 0 0 0 0 0 0 0 0,
  m 0 12 0 0 2 (-2) 1 0 (-8) 11 0 0 0 0 0 0,
  m 0 12 1 0 2 0 2 0 0 (-4) 8 (-3) 0 0 0 0,
  m 0 12 1 0 2 0 2 0 0 4 (-8) 3 0 0 0 0,
  m (-12) 0 1 (-2) 0 (-1) 0 0 0 0 0 0 0 0 0 0,
  m 12 0 2 0 2 (-2) 2 0 0 (-2) 0 3 0 0 0 0,
  m 12 0 1 0 2 0 2 0 1 (-1) 0 0 0 0 0 0,
  m (-12) 0 1 0 2 0 2 0 (-1) 1 0 0 0 0 0 0,
  m 0 (-12) 0 0 2 (-2) 0 (-1) 0 2 0 0 0 0 0 0,
  m (-12) 0 4 0 (-2) (-2) 0 0 0 0 0 0 0 0 0 0,
  m (-12) 0 1 0 2 (-6) 1 0 0 0 0 0 0 0 0 0,
  m 12 0 0 1 (-4) 2 (-1) 0 0 0 0 0 0 0 0 0,
  m 0 12 0 0 1 (-1) 0 0 0 (-1) 0 0 (-2) 0 0 0,
  m 12 0 1 (-1) (-2) 1 (-1) 0 0 0 0 0 0 0 0 0,
  m 0 12 0 0 1 (-1) 0 0 0 1 0 0 0 0 0 0,
  m 0 12 2 0 (-1) (-1) 0 0 0 (-1) 0 3 0 0 0 0,
  m 0 (-12) 0 0 1 (-1) 0 0 (-1) 0 0 0 0 0 0 0,
  m 12 0 4 1 2 (-2) 2 0 0 0 0 0 0 0 0 0,
  m 12 0 3 1 2 2 2 0 0 0 0 0 0 0 0 0,
  m (-12) 0 3 1 0 (-2) 0 0 0 0 0 0 0 0 0 0,
  m 12 0 3 1 (-2) (-6) (-2) 0 0 0 0 0 0 0 0 0,
  m (-12) 0 3 (-1) 0 (-2) 0 0 0 0 0 0 0 0 0 0,
  m (-12) 0 3 (-1) 0 (-3) 0 0 0 0 0 0 0 0 0 0,
  m 12 0 2 1 0 (-3) 0 0 0 0 0 0 0 0 0 0,
  m 0 12 2 0 1 (-3) 1 0 (-6) 7 0 0 0 0 0 0,
  m 0 (-12) 2 0 0 (-2) 0 0 2 (-5) 0 0 0 0 0 0,
  m 0 12 2 0 0 (-2) 0 0 0 (-2) 0 5 (-5) 0 0 0,
  m 12 0 2 0 0 (-2) 0 0 0 (-2) 0 1 5 0 0 0,
  m 12 0 2 0 0 (-2) 0 0 0 (-2) 0 0 2 0 0 0,
  m 12 0 2 0 0 (-2) 0 0 (-4) 4 0 0 0 0 0 0,
  m 0 12 2 0 (-2) 0 (-2) 0 0 5 (-9) 0 0 0 0 0,
  m (-12) 0 2 0 (-2) (-5) (-2) 0 0 0 0 0 0 0 0 0,
  m (-12) 0 2 (-1) 2 4 2 0 0 0 0 0 0 0 0 0,
  m 12 0 1 3 (-2) (-2) (-2) 0 0 0 0 0 0 0 0 0,
  m (-12) 0 1 1 (-2) (-1) (-2) 0 0 0 0 0 0 0 0 0,
  m (-12) 0 1 0 2 (-2) 2 0 (-3) 3 0 0 0 0 0 0,
  m 0 12 1 0 1 1 1 0 0 1 0 0 0 0 0 0,
  m 12 0 1 0 0 0 0 0 0 1 0 (-1) 0 0 0 0,
  m 12 0 1 0 0 0 0 0 0 (-2) 0 3 0 0 0 0,
  m (-12) 0 1 0 0 (-2) 0 0 0 2 0 (-2) 0 0 0 0,
  m 12 0 1 0 (-1) 0 (-1) 0 (-3) 5 0 0 0 0 0 0,
  m (-12) 0 1 0 (-1) (-1) 0 0 0 8 (-15) 0 0 0 0 0,
  m 0 (-12) 1 0 (-1) (-2) (-1) 0 0 0 0 0 0 0 0 0,
  m (-12) 0 1 0 (-2) (-2) (-2) 0 0 1 0 (-1) 0 0 0 0,
  m 12 0 0 0 2 2 2 0 0 2 0 (-2) 0 0 0 0]

private def tableX0_6 : List Term := [
  m (-12) 0 0 0 2 (-2) 1 0 0 (-2) 0 1 0 0 0 0,
  m (-12) 0 0 0 2 (-2) 1 0 0 (-2) 0 0 0 0 0 0,
  m 12 0 0 0 2 (-2) 1 0 0 (-4) 4 0 0 0 0 0,
  m 0 12 0 0 2 (-2) 1 0 0 (-7) 9 0 0 0 0 0,
  m (-12) 0 0 0 2 (-2) 1 0 0 (-10) 15 0 0 0 0 0,
  m 12 0 0 0 1 (-1) 1 0 0 1 (-4) 0 0 0 0 0,
  m 0 12 0 0 1 (-1) 1 0 0 (-1) 0 1 (-3) 0 0 0,
  m 0 12 0 0 1 (-1) 1 0 (-1) 2 0 0 0 0 0 0,
  m 12 0 0 0 1 (-1) 1 0 (-4) 6 0 0 0 0 0 0,
  m (-12) 0 0 0 0 2 0 0 0 2 0 (-2) 0 0 0 0,
  m (-12) 0 0 0 0 2 0 0 (-2) 2 0 0 0 0 0 0,
  m 12 0 0 0 0 0 0 0 9 (-13) 0 0 0 0 0 (-2),
  m (-12) 0 0 0 0 0 0 0 8 (-11) 0 0 0 0 0 (-1),
  m 12 0 0 0 0 0 0 0 8 (-14) 0 0 0 0 0 (-2),
  m 0 (-12) 0 0 0 0 0 0 7 (-11) 0 0 0 0 0 (-1),
  m 0 (-12) 0 0 0 0 0 0 6 (-4) 0 0 0 0 0 1,
  m 0 (-12) 0 0 0 0 0 0 6 (-6) 0 0 0 0 0 1,
  m (-12) 0 0 0 0 0 0 0 6 (-7) 0 0 0 0 0 (-1),
  m (-12) 0 0 0 0 0 0 0 6 (-8) 0 0 0 0 0 0,
  m 0 (-12) 0 0 0 0 0 0 6 (-9) 0 0 0 0 0 0,
  m 0 12 0 0 0 0 0 0 5 (-4) 0 0 0 0 0 2,
  m (-12) 0 0 0 0 0 0 0 5 (-6) 0 0 0 0 0 (-1),
  m 0 (-12) 0 0 0 0 0 0 5 (-6) 0 0 0 0 0 (-2),
  m (-12) 0 0 0 0 0 0 0 5 (-6) (-4) 0 0 0 0 (-2),
  m 0 12 0 0 0 0 0 0 4 (-2) 0 0 0 0 0 0,
  m 0 (-12) 0 0 0 0 0 0 4 (-5) 0 0 0 0 0 0,
  m 12 0 0 0 0 0 0 0 4 (-8) 0 0 0 0 0 (-2),
  m (-12) 0 0 0 0 0 0 0 3 (-1) 0 0 0 0 0 0,
  m (-12) 0 0 0 0 0 0 0 3 (-3) 0 2 0 0 0 2,
  m 12 0 0 0 0 0 0 0 3 (-4) 0 0 0 0 0 1,
  m 0 12 0 0 0 0 0 0 2 1 0 0 0 0 0 1,
  m (-12) 0 0 0 0 0 0 0 2 0 0 0 0 0 0 0,
  m 12 0 0 0 0 0 0 0 1 (-1) 0 0 0 0 0 (-2),
  m 12 0 0 0 0 0 0 0 1 (-4) 0 0 0 0 0 (-1),
  m (-12) 0 0 0 0 0 0 0 0 9 (-17) 0 0 0 0 (-2),
  m 0 12 0 0 0 0 0 0 0 7 (-7) 0 0 0 0 2,
  m 0 12 0 0 0 0 0 0 0 7 (-12) 0 0 0 0 (-2),
  m (-12) 0 0 0 0 0 0 0 0 6 (-4) 0 0 0 0 2,
  m 0 (-12) 0 0 0 0 0 0 0 6 (-8) 1 5 0 0 2,
  m (-12) 0 0 0 0 0 0 0 0 6 (-9) 0 0 0 0 (-2),
  m 0 12 0 0 0 0 0 0 0 6 (-10) 0 0 0 0 0,
  m (-12) 0 0 0 0 0 0 0 0 5 0 (-4) 0 0 0 2,
  m 12 0 0 0 0 0 0 0 0 5 (-6) 0 0 0 0 0,
  m (-12) 0 0 0 0 0 0 0 0 5 (-7) 0 0 0 0 (-2),
  m (-12) 0 0 0 0 0 0 0 0 5 (-8) 3 0 0 0 2,
  m (-12) 0 0 0 0 0 0 0 0 5 (-9) 0 0 0 0 (-1),
  m (-12) 0 0 0 0 0 0 0 0 5 (-13) 0 0 0 0 (-2),
  m 12 0 0 0 0 0 0 0 0 5 (-16) 4 5 0 0 (-2),
  m (-12) 0 0 0 0 0 0 0 0 4 (-7) 0 0 0 0 (-1),
  m 12 0 0 0 0 0 0 0 0 4 (-8) 3 0 0 0 1,
  m 12 0 0 0 0 0 0 0 0 4 (-8) 3 0 0 0 (-1),
  m (-12) 0 0 0 0 0 0 0 0 3 0 (-5) 0 0 0 (-2),
  m 0 (-12) 0 0 0 0 0 0 0 3 (-5) 0 0 0 0 (-1),
  m 0 (-12) 0 0 0 0 0 0 0 3 (-7) 0 0 0 0 (-2),
  m 0 (-12) 0 0 0 0 0 0 0 3 (-9) 0 0 0 0 (-2),
  m 12 0 0 0 0 0 0 0 0 2 1 0 0 0 0 2,
  m 12 0 0 0 0 0 0 0 0 2 0 2 0 0 0 2,
  m 0 12 0 0 0 0 0 0 0 2 0 0 (-3) 0 0 0,
  m 0 (-12) 0 0 0 0 0 0 0 2 (-8) 1 5 0 0 (-2),
  m 0 12 0 0 0 0 0 0 0 1 0 1 0 0 0 1,
  m (-12) 0 0 0 0 0 0 0 0 1 0 1 (-5) 0 0 0,
  m 0 (-12) 0 0 0 0 0 0 0 1 0 0 2 0 0 2,
  m (-12) 0 0 0 0 0 0 0 0 1 0 0 (-3) 0 0 0,
  m 12 0 0 0 0 0 0 0 0 1 0 (-3) 5 0 0 0,
  m 0 12 0 0 0 0 0 0 0 1 (-3) 0 0 0 0 0,
  m 12 0 0 0 0 0 0 0 0 0 0 2 (-6) 3 0 (-2),
  m 0 12 0 0 0 0 0 0 0 0 0 1 (-2) 0 0 0,
  m 0 12 0 0 0 0 0 0 0 0 0 0 0 1 0 0,
  m 12 0 0 0 0 0 0 0 0 0 0 0 0 0 0 2,
  m 8 4 0 0 0 0 0 0 0 0 1 0 0 0 0 0,
  m (-12) 0 1 1 0 (-6) 0 0 0 0 0 0 0 0 0 0,
  m (-12) 0 1 0 0 3 0 0 0 0 0 0 0 0 0 0,
  m 12 0 2 0 0 (-2) 0 0 0 (-2) 0 0 5 0 0 0,
  m (-12) 0 3 0 (-2) (-1) (-1) 0 0 0 0 0 0 0 0 0,
  m (-12) 0 1 2 2 (-4) 1 0 0 0 0 0 0 0 0 0,
  m (-12) 0 0 0 1 (-1) 0 0 (-2) 2 0 0 0 0 0 0,
  m 0 12 1 0 (-1) 1 0 0 0 1 0 0 0 0 0 0,
  m 12 0 0 0 2 (-2) 1 0 1 (-1) 0 0 0 0 0 0,
  m (-12) 0 2 0 2 (-6) 1 0 0 0 0 0 0 0 0 0,
  m (-12) 0 2 1 2 (-2) 0 0 0 0 0 0 0 0 0 0,
  m (-12) 0 2 1 2 0 0 0 0 0 0 0 0 0 0 0,
  m (-12) 0 1 0 2 1 0 0 0 0 0 0 0 0 0 0,
  m 12 0 4 0 (-2) 0 (-1) 0 0 0 0 0 0 0 0 0,
  m (-12) 0 0 0 0 0 1 0 0 7 (-13) 0 0 0 0 0,
  m 12 0 2 1 0 2 1 0 0 0 0 0 0 0 0 0,
  m (-12) 0 1 (-1) 0 4 1 0 0 0 0 0 0 0 0 0,
  m (-12) 0 3 0 (-2) (-4) (-2) 0 0 0 0 0 0 0 0 0,
  m 12 0 2 0 0 (-6) (-1) 0 0 0 0 0 0 0 0 0,
  m 12 0 0 0 1 (-1) (-1) 0 (-5) 7 0 0 0 0 0 0,
  m 12 0 0 0 0 0 2 0 (-3) 5 0 0 0 0 0 0,
  m 0 (-12) 0 0 1 1 2 0 0 1 0 0 0 0 0 0,
  m 0 (-12) 0 0 1 (-1) 2 0 (-3) 4 0 0 0 0 0 0,
  m 0 12 0 0 0 0 1 0 (-1) 2 0 0 0 0 0 0,
  m 12 0 2 (-1) 0 (-2) 2 0 0 0 0 0 0 0 0 0,
  m 12 0 1 1 (-2) 1 (-2) 0 0 0 0 0 0 0 0 0,
  m 12 0 2 1 (-2) 0 (-2) 0 0 0 0 0 0 0 0 0,
  m (-12) 0 0 0 1 (-1) 2 0 0 (-1) 0 0 (-1) 0 0 0,
  m (-12) 0 2 1 2 (-4) 2 0 0 0 0 0 0 0 0 0,
  m 12 0 2 0 0 (-4) 2 0 0 0 0 0 0 0 0 0,
  m (-12) 0 3 0 0 0 (-2) 0 0 0 0 0 0 0 0 0,
  m 12 0 1 0 0 (-4) 2 0 0 0 0 0 0 0 0 0,
  m 12 0 2 0 0 (-4) (-2) 0 0 0 0 0 0 0 0 0,
  m 12 0 1 1 0 0 (-2) 0 0 0 0 0 0 0 0 0,
  m (-12) 0 0 0 0 0 1 0 0 2 0 (-2) 0 0 0 0,
  m (-12) 0 1 0 (-2) 4 (-2) 0 0 0 0 0 0 0 0 0,
  m 11 0 0 0 4 (-4) 4 0 0 0 0 0 0 0 0 0]

/-- Terms of degree 0 in t. -/
def tableX0 : List Term := tableX0_0 ++ tableX0_1 ++ tableX0_2 ++ tableX0_3 ++ tableX0_4 ++ tableX0_5 ++ tableX0_6

private def tableX1_0 : List Term := [
  m (-330973) 20583311 0 0 0 0 1 0 0 0 0 0 0 0 0 0,
  m 19897 1281401 0 0 2 (-2) 2 0 0 0 0 0 0 0 0 0,
  m 4144 218791 0 0 2 0 2 0 0 0 0 0 0 0 0 0,
  m (-3607) (-200436) 0 0 0 0 2 0 0 0 0 0 0 0 0 0,
  m 5920 50182 0 1 2 (-2) 2 0 0 0 0 0 0 0 0 0,
  m (-577) 44876 0 0 2 0 1 0 0 0 0 0 0 0 0 0,
  m (-17973) 16433 0 1 0 0 0 0 0 0 0 0 0 0 0 0,
  m 570 28849 1 0 2 0 2 0 0 0 0 0 0 0 0 0,
  m 2387 (-21450) 0 1 (-2) 2 (-2) 0 0 0 0 0 0 0 0 0,
  m 286 (-15491) 0 0 2 (-2) 1 0 0 0 0 0 0 0 0 0,
  m 216 (-11921) 1 0 (-2) 0 (-2) 0 0 0 0 0 0 0 0 0,
  m 116 (-7433) 1 0 0 0 1 0 0 0 0 0 0 0 0 0,
  m 146 7031 1 0 0 0 (-1) 0 0 0 0 0 0 0 0 0,
  m (-42) 5894 1 0 2 0 1 0 0 0 0 0 0 0 0 0,
  m (-96) 5712 1 0 (-2) (-2) (-2) 0 0 0 0 0 0 0 0 0,
  m (-107) (-5419) 2 0 (-2) 0 (-1) 0 0 0 0 0 0 0 0 0,
  m 92 3678 0 0 2 2 2 0 0 0 0 0 0 0 0 0,
  m 68 (-3101) 0 2 (-2) 2 (-2) 0 0 0 0 0 0 0 0 0,
  m 74 2960 2 0 2 0 2 0 0 0 0 0 0 0 0 0,
  m (-61) (-2759) 1 0 2 (-2) 2 0 0 0 0 0 0 0 0 0,
  m (-1119) (-1507) 1 0 0 0 0 0 0 0 0 0 0 0 0 0,
  m (-40) (-2405) 1 0 (-2) 0 (-1) 0 0 0 0 0 0 0 0 0,
  m (-81) 1906 0 1 0 0 1 0 0 0 0 0 0 0 0 0,
  m 318 1532 0 2 2 (-2) 2 0 0 0 0 0 0 0 0 0,
  m (-8) (-1790) 1 0 0 (-2) (-1) 0 0 0 0 0 0 0 0 0,
  m (-16) 1555 1 0 0 (-2) 1 0 0 0 0 0 0 0 0 0,
  m (-77) 1440 0 1 0 0 (-1) 0 0 0 0 0 0 0 0 0,
  m (-25) 1167 1 0 (-2) (-2) (-1) 0 0 0 0 0 0 0 0 0,
  m 618 358 0 0 1 (-1) 1 0 0 (-1) 0 (-2) 5 0 0 0,
  m (-101) (-727) 0 1 2 0 2 0 0 0 0 0 0 0 0 0,
  m (-99) 687 0 1 (-2) 0 (-2) 0 0 0 0 0 0 0 0 0,
  m (-27) 749 0 0 2 2 1 0 0 0 0 0 0 0 0 0,
  m (-30) 731 0 0 0 2 1 0 0 0 0 0 0 0 0 0,
  m 20 730 1 0 2 2 2 0 0 0 0 0 0 0 0 0,
  m 33 680 2 0 0 (-2) (-1) 0 0 0 0 0 0 0 0 0,
  m 27 (-681) 1 0 2 (-2) 1 0 0 0 0 0 0 0 0 0,
  m 35 608 0 0 0 2 (-1) 0 0 0 0 0 0 0 0 0,
  m 34 609 0 1 (-2) 2 (-1) 0 0 0 0 0 0 0 0 0,
  m (-14) (-619) 2 0 2 (-2) 2 0 0 0 0 0 0 0 0 0,
  m 14 602 2 0 2 0 1 0 0 0 0 0 0 0 0 0,
  m 271 (-276) 1 0 0 (-2) 0 0 0 0 0 0 0 0 0 0,
  m (-8) (-493) 2 0 0 (-2) 1 0 0 0 0 0 0 0 0 0,
  m 285 (-177) 0 0 0 0 0 0 0 0 0 2 (-5) 0 0 (-1),
  m (-7) (-427) 0 1 2 (-2) 1 0 0 0 0 0 0 0 0 0,
  m (-371) 38 0 2 0 0 0 0 0 0 0 0 0 0 0 0,
  m 375 4 0 1 (-1) 1 (-1) 0 0 0 0 0 0 0 0 0,
  m (-82) (-273) 0 0 0 2 0 0 0 0 0 0 0 0 0 0,
  m (-6) 293 2 0 (-2) 0 (-2) 0 0 0 0 0 0 0 0 0,
  m (-4) 283 2 0 0 0 (-1) 0 0 0 0 0 0 0 0 0,
  m 8 275 3 0 2 0 2 0 0 0 0 0 0 0 0 0,
  m 7 275 1 (-1) 2 0 2 0 0 0 0 0 0 0 0 0,
  m (-7) 270 1 1 (-2) (-2) (-2) 0 0 0 0 0 0 0 0 0,
  m (-7) 252 0 1 (-2) (-2) (-2) 0 0 0 0 0 0 0 0 0,
  m (-5) (-253) 2 0 0 0 1 0 0 0 0 0 0 0 0 0,
  m (-4) 240 1 0 (-2) 2 (-1) 0 0 0 0 0 0 0 0 0,
  m (-6) (-237) 1 1 2 0 2 0 0 0 0 0 0 0 0 0,
  m 69 (-145) 0 0 1 (-1) 1 0 (-8) 12 0 0 0 0 0 0,
  m (-4) 200 0 0 0 0 0 0 3 (-5) 0 0 0 0 0 (-2),
  m 199 2 1 0 (-1) 0 (-1) 0 0 0 0 0 0 0 0 0,
  m (-94) 107 2 0 0 (-2) 0 0 0 0 0 0 0 0 0 0,
  m 4 191 1 0 0 0 2 0 0 0 0 0 0 0 0 0,
  m (-58) (-136) 2 0 0 0 0 0 0 0 0 0 0 0 0 0,
  m (-52) (-125) 0 0 2 0 0 0 0 0 0 0 0 0 0 0,
  m (-4) (-159) 0 0 2 1 2 0 0 0 0 0 0 0 0 0,
  m 40 (-123) 1 0 0 (-1) 0 0 0 0 0 0 0 0 0 0,
  m 3 (-157) 1 (-1) 0 (-1) (-1) 0 0 0 0 0 0 0 0 0,
  m (-3) 150 0 2 (-2) 2 (-1) 0 0 0 0 0 0 0 0 0,
  m 4 148 1 0 2 2 1 0 0 0 0 0 0 0 0 0,
  m (-4) 145 1 0 (-2) (-4) (-2) 0 0 0 0 0 0 0 0 0,
  m 3 (-136) 1 0 0 0 (-2) 0 0 0 0 0 0 0 0 0,
  m 3 (-132) 2 0 (-2) (-2) (-2) 0 0 0 0 0 0 0 0 0,
  m (-3) (-124) 1 1 2 (-2) 2 0 0 0 0 0 0 0 0 0,
  m (-2) (-118) 2 0 2 (-2) 1 0 0 0 0 0 0 0 0 0,
  m (-3) 116 2 0 (-2) (-4) (-2) 0 0 0 0 0 0 0 0 0,
  m 2 113 0 0 0 0 0 0 0 0 0 2 0 0 0 2,
  m 4 (-111) 1 0 0 (-1) (-1) 0 0 0 0 0 0 0 0 0,
  m 2 111 1 0 0 2 1 0 0 0 0 0 0 0 0 0,
  m 3 (-110) 1 0 (-4) 0 (-2) 0 0 0 0 0 0 0 0 0,
  m 3 104 2 0 2 2 2 0 0 0 0 0 0 0 0 0,
  m (-51) 56 0 0 0 0 1 0 0 (-1) 2 0 0 0 0 0,
  m 2 (-98) 0 0 2 (-2) (-1) 0 0 0 0 0 0 0 0 0,
  m (-2) (-94) 0 1 2 0 1 0 0 0 0 0 0 0 0 0,
  m (-2) (-89) 3 0 2 (-2) 2 0 0 0 0 0 0 0 0 0,
  m (-2) (-88) 0 0 4 (-2) 2 0 0 0 0 0 0 0 0 0,
  m 31 60 0 0 0 0 0 0 8 (-13) 0 0 0 0 0 (-1),
  m 2 (-87) 1 1 0 (-2) (-1) 0 0 0 0 0 0 0 0 0,
  m (-2) (-87) 2 0 (-2) 0 1 0 0 0 0 0 0 0 0 0,
  m (-1) 83 0 0 2 0 (-1) 0 0 0 0 0 0 0 0 0,
  m (-2) 77 0 1 (-2) 0 (-1) 0 0 0 0 0 0 0 0 0,
  m 43 (-36) 0 0 2 (-2) 0 0 0 0 0 0 0 0 0 0,
  m (-1) (-73) 0 1 0 0 2 0 0 0 0 0 0 0 0 0,
  m 1 71 1 1 0 (-2) 1 0 0 0 0 0 0 0 0 0,
  m 1 68 0 0 2 (-1) 2 0 0 0 0 0 0 0 0 0,
  m 2 66 0 0 2 4 2 0 0 0 0 0 0 0 0 0,
  m (-1) (-62) 1 (-1) 0 0 1 0 0 0 0 0 0 0 0 0,
  m (-1) 62 1 0 0 2 (-1) 0 0 0 0 0 0 0 0 0,
  m (-58) (-3) 0 0 1 (-1) 1 0 0 (-1) 0 2 (-5) 0 0 0,
  m (-1) 58 1 (-1) 0 (-1) (-2) 0 0 0 0 0 0 0 0 0,
  m 44 14 0 0 0 0 0 0 0 2 (-8) 3 0 0 0 (-2),
  m 2 56 1 (-1) 2 2 2 0 0 0 0 0 0 0 0 0,
  m (-13) (-45) 1 0 0 2 0 0 0 0 0 0 0 0 0 0,
  m 1 (-57) 0 1 0 0 (-2) 0 0 0 0 0 0 0 0 0,
  m 1 56 3 0 2 0 1 0 0 0 0 0 0 0 0 0,
  m 1 (-55) 1 (-1) (-2) (-2) (-2) 0 0 0 0 0 0 0 0 0,
  m 1 55 1 0 2 (-4) 1 0 0 0 0 0 0 0 0 0,
  m (-52) 3 0 0 2 (-2) 1 0 (-5) 6 0 0 0 0 0 0,
  m (-1) 54 1 1 (-2) (-2) (-1) 0 0 0 0 0 0 0 0 0,
  m (-1) (-51) 0 1 2 2 2 0 0 0 0 0 0 0 0 0,
  m (-41) (-11) 0 0 0 0 0 0 0 6 (-8) 3 0 0 0 2,
  m (-1) 50 0 1 (-2) (-2) (-1) 0 0 0 0 0 0 0 0 0,
  m 1 48 1 (-1) 2 0 1 0 0 0 0 0 0 0 0 0,
  m 45 (-4) 1 0 (-2) (-2) 0 0 0 0 0 0 0 0 0 0,
  m 1 (-48) 0 0 0 0 0 0 4 (-6) 0 0 0 0 0 (-2),
  m 1 46 2 (-1) 2 0 2 0 0 0 0 0 0 0 0 0,
  m (-24) 24 2 0 (-2) 0 0 0 0 0 0 0 0 0 0 0,
  m 1 46 0 0 0 1 1 0 0 0 0 0 0 0 0 0,
  m 35 (-11) 0 0 0 0 1 0 0 (-4) 8 (-3) 0 0 0 0,
  m 1 45 0 0 0 2 2 0 0 0 0 0 0 0 0 0,
  m 1 (-45) 1 (-1) (-2) 0 (-2) 0 0 0 0 0 0 0 0 0,
  m 0 (-45) 0 0 0 0 0 0 0 3 0 (-1) 0 0 0 2,
  m (-1) 44 0 0 0 0 0 0 2 (-4) 0 0 0 0 0 (-2),
  m 35 9 0 0 0 0 1 0 0 4 (-8) 3 0 0 0 0,
  m 1 42 1 1 0 0 1 0 0 0 0 0 0 0 0 0,
  m (-1) (-41) 1 1 2 0 1 0 0 0 0 0 0 0 0 0,
  m 9 (-33) 0 0 1 (-1) 1 0 0 0 (-2) 0 0 0 0 0,
  m 0 41 0 1 0 (-2) 1 0 0 0 0 0 0 0 0 0,
  m 1 40 0 3 2 (-2) 2 0 0 0 0 0 0 0 0 0,
  m (-1) (-39) 2 1 2 0 2 0 0 0 0 0 0 0 0 0,
  m (-39) (-1) 1 0 (-1) 0 (-2) 0 0 0 0 0 0 0 0 0,
  m 1 (-39) 0 0 0 1 (-1) 0 0 0 0 0 0 0 0 0,
  m (-1) 38 1 0 0 (-2) (-2) 0 0 0 0 0 0 0 0 0,
  m 32 (-7) 0 0 0 0 0 0 0 0 0 2 0 0 0 1,
  m (-1) 36 1 (-1) 0 0 (-1) 0 0 0 0 0 0 0 0 0,
  m (-1) (-36) 0 0 0 0 0 0 2 0 0 0 0 0 0 2,
  m 1 (-34) 1 0 (-2) 2 (-2) 0 0 0 0 0 0 0 0 0,
  m 1 (-34) 2 0 0 (-2) (-1) 0 0 (-2) 0 2 0 0 0 0,
  m 1 33 0 0 0 0 0 0 1 1 0 0 0 0 0 2,
  m (-1) (-32) 1 0 2 1 2 0 0 0 0 0 0 0 0 0,
  m 1 32 1 0 2 (-1) 2 0 0 0 0 0 0 0 0 0,
  m (-1) (-32) 0 0 2 1 1 0 0 0 0 0 0 0 0 0,
  m (-1) (-31) 1 0 (-2) 0 1 0 0 0 0 0 0 0 0 0,
  m (-31) 0 0 0 1 0 1 0 0 0 0 0 0 0 0 0,
  m (-7) (-24) 1 0 2 0 0 0 0 0 0 0 0 0 0 0,
  m 10 (-21) 0 0 1 (-1) 1 0 0 (-1) 0 0 (-1) 0 0 0,
  m (-1) (-30) 1 0 0 (-2) 2 0 0 0 0 0 0 0 0 0,
  m (-1) 29 1 0 (-2) (-4) (-1) 0 0 0 0 0 0 0 0 0,
  m (-1) (-29) 1 1 2 (-2) 1 0 0 0 0 0 0 0 0 0,
  m 0 29 1 0 (-2) 1 (-1) 0 0 0 0 0 0 0 0 0,
  m 23 6 0 0 1 (-1) 1 0 0 (-1) 0 (-1) 0 0 0 0,
  m 26 2 0 0 0 0 0 0 0 0 0 2 (-5) 0 0 1,
  m 0 (-27) 2 0 (-2) (-2) (-1) 0 0 0 0 0 0 0 0 0,
  m 25 2 0 0 0 0 0 0 5 (-8) 0 0 0 0 0 (-2),
  m 9 (-18) 0 1 0 (-2) 0 0 0 0 0 0 0 0 0 0,
  m 1 25 0 0 0 0 0 0 0 1 0 1 0 0 0 2,
  m 14 (-11) 1 1 0 (-2) 0 0 0 0 0 0 0 0 0 0,
  m 0 (-25) 1 1 0 0 (-1) 0 0 0 0 0 0 0 0 0,
  m 1 24 4 0 2 0 2 0 0 0 0 0 0 0 0 0,
  m (-1) (-24) 2 1 2 (-2) 2 0 0 0 0 0 0 0 0 0,
  m 0 23 2 0 (-2) (-4) (-1) 0 0 0 0 0 0 0 0 0,
  m 1 23 0 1 2 1 2 0 0 0 0 0 0 0 0 0,
  m (-1) (-23) 1 0 4 (-2) 2 0 0 0 0 0 0 0 0 0,
  m 0 (-23) 0 1 0 2 1 0 0 0 0 0 0 0 0 0,
  m 0 (-22) 1 0 (-4) 0 (-1) 0 0 0 0 0 0 0 0 0,
  m 0 21 1 0 0 (-4) (-1) 0 0 0 0 0 0 0 0 0,
  m 1 21 2 0 2 2 1 0 0 0 0 0 0 0 0 0,
  m (-17) 3 0 0 1 (-1) 1 0 0 (-1) 0 2 0 0 0 0,
  m (-17) 3 0 0 0 0 0 0 8 (-13) 0 0 0 0 0 (-2),
  m 0 (-19) 0 0 0 0 0 0 5 (-7) 0 0 0 0 0 (-2),
  m 14 (-6) 0 0 0 0 0 0 0 0 0 0 2 0 0 1,
  m 3 (-17) 0 0 1 (-1) 1 0 (-5) 7 0 0 0 0 0 0,
  m (-13) 6 0 0 1 (-1) 1 0 0 (-1) 0 0 2 0 0 0,
  m 0 19 0 0 2 (-4) 1 0 0 0 0 0 0 0 0 0,
  m 0 19 0 0 2 (-3) 2 0 0 0 0 0 0 0 0 0,
  m (-6) (-13) 1 0 2 0 2 0 0 1 0 0 0 0 0 0,
  m 0 18 0 1 0 (-2) (-1) 0 0 0 0 0 0 0 0 0,
  m (-9) (-9) 1 (-1) 0 0 0 0 0 0 0 0 0 0 0 0,
  m 10 (-9) 0 0 0 0 0 0 0 8 (-16) 4 5 0 0 (-2),
  m 6 12 1 0 (-2) 0 (-2) 0 0 4 (-8) 3 0 0 0 0,
  m 0 18 0 0 0 0 0 0 0 4 0 (-2) 0 0 0 2,
  m 0 (-18) 0 0 4 0 2 0 0 0 0 0 0 0 0 0,
  m 0 17 0 0 0 4 1 0 0 0 0 0 0 0 0 0,
  m (-3) 15 0 0 0 0 0 0 0 2 0 (-1) 0 0 0 2,
  m (-1) (-16) 0 0 0 0 0 0 0 2 0 1 0 0 0 2,
  m 0 17 1 1 (-2) (-4) (-2) 0 0 0 0 0 0 0 0 0,
  m 0 (-17) 2 0 0 (-2) (-2) 0 0 0 0 0 0 0 0 0,
  m 11 6 0 0 0 0 0 0 8 (-11) 0 0 0 0 0 (-2),
  m (-8) 9 1 0 (-2) 0 0 0 0 0 0 0 0 0 0 0,
  m 0 (-17) 3 0 2 (-2) 1 0 0 0 0 0 0 0 0 0,
  m (-17) 0 0 0 0 0 0 0 2 (-1) 0 0 0 0 0 2,
  m 0 (-16) 0 0 4 (-2) 1 0 0 0 0 0 0 0 0 0,
  m 1 15 1 0 2 4 2 0 0 0 0 0 0 0 0 0,
  m (-13) (-3) 0 0 0 0 0 0 1 (-1) 0 0 0 0 0 (-1),
  m 0 15 1 1 (-2) 0 (-2) 0 0 0 0 0 0 0 0 0,
  m 0 15 2 1 0 (-2) (-1) 0 0 0 0 0 0 0 0 0,
  m (-13) 3 0 0 0 0 0 0 4 (-6) 0 0 0 0 0 (-1),
  m 10 (-6) 0 0 0 0 0 0 8 (-15) 0 0 0 0 0 (-2),
  m (-7) 8 0 0 0 0 0 0 0 1 2 0 0 0 0 2,
  m (-9) (-6) 0 0 0 0 0 0 0 3 0 (-2) 0 0 0 2,
  m 0 15 3 0 0 0 (-1) 0 0 0 0 0 0 0 0 0,
  m (-7) (-8) 0 0 0 0 0 0 0 3 (-2) 0 0 0 0 2]

private def tableX1_1 : List Term := [
  m 0 (-14) 2 0 0 (-4) (-1) 0 0 0 0 0 0 0 0 0,
  m 2 12 0 0 0 0 0 0 0 0 0 3 0 0 0 2,
  m 7 8 1 1 0 0 0 0 0 0 0 0 0 0 0 0,
  m (-3) (-11) 3 0 0 0 0 0 0 0 0 0 0 0 0 0,
  m (-1) (-14) 0 0 0 0 0 0 0 4 (-2) 0 0 0 0 2,
  m 0 (-14) 0 0 2 (-2) 1 0 (-3) 3 0 0 0 0 0 0,
  m 2 (-12) 1 0 0 (-1) 1 0 0 0 0 0 0 0 0 0,
  m 0 (-14) 1 1 2 2 2 0 0 0 0 0 0 0 0 0,
  m 0 14 0 0 1 (-1) 1 0 0 3 (-8) 3 0 0 0 0,
  m 0 14 0 0 2 (-1) 1 0 0 0 0 0 0 0 0 0,
  m 0 13 0 0 2 4 1 0 0 0 0 0 0 0 0 0,
  m 8 (-6) 0 0 0 0 1 0 8 (-13) 0 0 0 0 0 0,
  m 0 13 1 (-1) 0 (-2) (-1) 0 0 0 0 0 0 0 0 0,
  m 0 13 0 0 0 0 0 0 0 0 0 0 2 0 0 2,
  m 1 13 3 0 2 2 2 0 0 0 0 0 0 0 0 0,
  m 0 13 2 0 0 2 1 0 0 0 0 0 0 0 0 0,
  m 0 13 1 (-1) (-2) 2 (-1) 0 0 0 0 0 0 0 0 0,
  m (-2) (-11) 2 0 0 (-2) 1 0 0 (-2) 0 3 0 0 0 0,
  m 8 (-4) 0 0 0 1 0 0 0 0 0 0 0 0 0 0,
  m 0 13 2 0 0 (-4) 1 0 0 0 0 0 0 0 0 0,
  m 0 13 1 0 0 (-4) 1 0 0 0 0 0 0 0 0 0,
  m 1 (-12) 2 1 (-2) 0 (-1) 0 0 0 0 0 0 0 0 0,
  m 0 12 0 2 (-2) (-2) (-2) 0 0 0 0 0 0 0 0 0,
  m (-2) (-11) 0 0 0 0 0 0 5 (-8) 0 0 0 0 0 (-1),
  m 0 (-12) 2 0 2 (-4) 1 0 0 0 0 0 0 0 0 0,
  m 0 (-12) 0 0 0 0 0 0 0 8 (-16) 4 5 0 0 2,
  m 0 (-12) 0 0 1 (-1) 1 0 0 (-5) 8 (-3) 0 0 0 0,
  m 4 8 1 0 0 0 (-1) 0 (-18) 16 0 0 0 0 0 0,
  m 0 (-12) 0 0 0 0 0 0 0 1 0 (-3) 0 0 0 (-2),
  m 0 (-12) 0 0 0 2 (-2) 0 0 0 0 0 0 0 0 0,
  m 0 12 1 (-1) 0 (-2) (-2) 0 0 0 0 0 0 0 0 0,
  m 0 (-11) 0 0 0 0 0 0 6 (-8) 0 0 0 0 0 (-2),
  m 3 (-9) 1 0 0 (-4) 0 0 0 0 0 0 0 0 0 0,
  m 0 11 0 2 0 0 1 0 0 0 0 0 0 0 0 0,
  m (-11) 0 0 0 0 0 0 0 3 (-2) 0 0 0 0 0 2,
  m 0 11 1 (-1) 2 2 1 0 0 0 0 0 0 0 0 0,
  m 0 (-11) 1 (-1) (-2) 0 (-1) 0 0 0 0 0 0 0 0 0,
  m 7 5 0 0 0 0 1 0 (-8) 13 0 0 0 0 0 0,
  m 11 0 0 0 0 0 0 0 2 (-5) 0 0 0 0 0 (-2),
  m 0 (-11) 0 0 0 0 0 0 1 (-3) 0 0 0 0 0 (-2),
  m 0 (-11) 4 0 2 (-2) 2 0 0 0 0 0 0 0 0 0,
  m 2 (-9) 0 0 0 0 1 0 0 0 0 (-2) 5 0 0 0,
  m 0 11 2 1 (-2) (-4) (-2) 0 0 0 0 0 0 0 0 0,
  m 2 9 0 0 0 0 1 0 0 0 0 2 (-5) 0 0 0,
  m 0 (-11) 0 2 2 (-2) 1 0 0 0 0 0 0 0 0 0,
  m 0 11 1 0 2 0 (-1) 0 0 0 0 0 0 0 0 0,
  m (-8) (-2) 0 0 0 0 1 0 0 0 0 1 0 0 0 0,
  m 0 (-10) 2 1 0 (-2) 1 0 0 0 0 0 0 0 0 0,
  m 0 (-10) 2 (-1) (-2) 0 (-1) 0 0 0 0 0 0 0 0 0,
  m (-3) (-7) 1 0 0 0 1 0 (-18) 16 0 0 0 0 0 0,
  m 0 10 1 2 (-2) (-2) (-2) 0 0 0 0 0 0 0 0 0,
  m 0 10 2 0 0 (-2) 2 0 0 0 0 0 0 0 0 0,
  m 0 (-10) 1 (-1) (-2) (-2) (-1) 0 0 0 0 0 0 0 0 0]

/-- Terms of degree 1 in t. -/
def tableX1 : List Term := tableX1_0 ++ tableX1_1

private def tableX2_0 : List Term := [
  m 203798 8146 0 0 0 0 1 0 0 0 0 0 0 0 0 0,
  m 15574 (-275) 0 0 2 (-2) 2 0 0 0 0 0 0 0 0 0,
  m 2692 (-46) 0 0 2 0 2 0 0 0 0 0 0 0 0 0,
  m (-2443) 47 0 0 0 0 2 0 0 0 0 0 0 0 0 0,
  m (-1736) (-50) 0 1 0 0 0 0 0 0 0 0 0 0 0 0,
  m (-841) 1 1 0 0 0 0 0 0 0 0 0 0 0 0 0,
  m 608 (-136) 0 1 2 (-2) 2 0 0 0 0 0 0 0 0 0,
  m 459 17 0 0 2 0 1 0 0 0 0 0 0 0 0 0,
  m 357 (-6) 1 0 2 0 2 0 0 0 0 0 0 0 0 0,
  m 254 60 0 1 (-2) 2 (-2) 0 0 0 0 0 0 0 0 0,
  m 186 0 1 0 0 (-2) 0 0 0 0 0 0 0 0 0 0,
  m (-152) (-7) 0 0 2 (-2) 1 0 0 0 0 0 0 0 0 0,
  m 146 4 1 0 (-2) 0 (-2) 0 0 0 0 0 0 0 0 0,
  m (-75) (-2) 1 0 0 0 1 0 0 0 0 0 0 0 0 0,
  m (-75) 0 0 0 0 2 0 0 0 0 0 0 0 0 0 0,
  m (-71) (-1) 1 0 (-2) (-2) (-2) 0 0 0 0 0 0 0 0 0,
  m (-69) 2 1 0 0 0 (-1) 0 0 0 0 0 0 0 0 0,
  m 61 2 1 0 2 0 1 0 0 0 0 0 0 0 0 0,
  m 54 (-4) 2 0 (-2) 0 (-1) 0 0 0 0 0 0 0 0 0,
  m (-56) 0 2 0 0 (-2) 0 0 0 0 0 0 0 0 0 0,
  m 46 (-2) 0 0 2 2 2 0 0 0 0 0 0 0 0 0,
  m 38 (-1) 0 2 (-2) 2 (-2) 0 0 0 0 0 0 0 0 0,
  m 37 (-2) 2 0 2 0 2 0 0 0 0 0 0 0 0 0,
  m (-34) 1 1 0 2 (-2) 2 0 0 0 0 0 0 0 0 0,
  m (-35) 0 2 0 0 0 0 0 0 0 0 0 0 0 0 0,
  m (-31) 0 0 0 2 0 0 0 0 0 0 0 0 0 0 0,
  m 19 (-9) 0 2 2 (-2) 2 0 0 0 0 0 0 0 0 0,
  m 26 0 0 0 2 (-2) 0 0 0 0 0 0 0 0 0 0,
  m 24 (-1) 1 0 (-2) 0 (-1) 0 0 0 0 0 0 0 0 0,
  m (-20) 0 0 2 0 0 0 0 0 0 0 0 0 0 0 0,
  m 18 (-1) 1 0 0 (-2) (-1) 0 0 0 0 0 0 0 0 0,
  m 17 0 0 1 0 0 1 0 0 0 0 0 0 0 0 0,
  m 15 1 1 0 0 (-2) 1 0 0 0 0 0 0 0 0 0,
  m (-15) 0 0 1 0 0 (-1) 0 0 0 0 0 0 0 0 0,
  m (-13) 0 2 0 (-2) 0 0 0 0 0 0 0 0 0 0 0,
  m (-12) 0 1 0 (-2) (-2) (-1) 0 0 0 0 0 0 0 0 0]

/-- Terms of degree 2 in t. -/
def tableX2 : List Term := tableX2_0

private def tableX3_0 : List Term := [
  m 173 (-2039) 0 0 0 0 1 0 0 0 0 0 0 0 0 0,
  m 0 (-127) 0 0 2 (-2) 2 0 0 0 0 0 0 0 0 0,
  m 0 (-22) 0 0 2 0 2 0 0 0 0 0 0 0 0 0,
  m 0 20 0 0 0 0 2 0 0 0 0 0 0 0 0 0]

/-- Terms of degree 3 in t. -/
def tableX3 : List Term := tableX3_0

private def tableX4_0 : List Term := [
  m (-10) (-2) 0 0 0 0 1 0 0 0 0 0 0 0 0 0]

/-- Terms of degree 4 in t. -/
def tableX4 : List Term := tableX4_0

end Verif.Cip.Spec
