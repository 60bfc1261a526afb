import Verif.Util
/-!
GENERATED by tools/genlex.py. The scanner tables of src/parser/flex_lexer.cpp, entry for entry.
-/
set_option maxRecDepth 200000
set_option linter.all false
namespace Verif.Lex

/-- src/parser/flex_lexer.cpp:359-511, `yy_accept` (1368 entries). -/
def yy_accept : List Nat :=
  [0, 0, 0, 186, 186, 2, 2, 190, 188, 4, 4, 188, 188, 177, 184, 177, 177, 181, 177, 177,
   177, 183, 183, 183, 183, 183, 183, 183, 183, 183, 183, 183, 183, 183, 183, 183, 183, 183, 183, 183,
   183, 183, 183, 183, 183, 177, 186, 187, 2, 2, 3, 2, 2, 2, 2, 2, 2, 2, 2, 2,
   2, 2, 2, 2, 2, 2, 2, 2, 2, 2, 2, 2, 2, 2, 2, 2, 2, 2, 2, 2,
   2, 2, 2, 2, 2, 2, 4, 172, 0, 1, 0, 179, 178, 181, 174, 173, 171, 175, 183, 183,
   183, 183, 183, 183, 12, 183, 183, 183, 19, 183, 183, 183, 183, 183, 183, 183, 183, 183, 183, 183,
   183, 183, 183, 183, 183, 183, 183, 183, 183, 183, 183, 183, 183, 183, 73, 183, 183, 76, 85, 183,
   183, 183, 183, 183, 183, 183, 183, 183, 103, 183, 183, 108, 111, 112, 183, 183, 183, 183, 183, 183,
   183, 183, 183, 183, 183, 183, 183, 183, 183, 183, 183, 183, 183, 183, 149, 183, 183, 183, 183, 183,
   183, 183, 183, 183, 176, 186, 185, 2, 2, 2, 2, 1, 2, 2, 2, 2, 2, 2, 2, 2,
   2, 2, 2, 2, 2, 2, 2, 2, 2, 2, 2, 2, 2, 2, 2, 2, 2, 2, 2, 2,
   2, 2, 2, 2, 2, 2, 2, 2, 2, 2, 2, 2, 2, 2, 2, 2, 2, 2, 2, 2,
   2, 2, 2, 2, 2, 2, 2, 2, 2, 2, 2, 2, 2, 2, 2, 2, 2, 2, 2, 2,
   2, 2, 2, 2, 2, 2, 2, 2, 2, 2, 2, 2, 2, 2, 2, 2, 2, 2, 2, 2,
   2, 2, 2, 2, 2, 2, 2, 182, 0, 178, 5, 183, 7, 183, 183, 10, 183, 13, 183, 183,
   183, 183, 183, 183, 183, 183, 183, 183, 183, 183, 183, 183, 183, 183, 34, 183, 183, 183, 183, 183,
   183, 183, 183, 183, 183, 183, 49, 183, 183, 183, 183, 183, 183, 183, 183, 183, 183, 60, 183, 183,
   183, 183, 183, 183, 183, 183, 183, 183, 183, 183, 183, 80, 183, 183, 88, 183, 183, 183, 183, 183,
   183, 183, 183, 183, 183, 104, 183, 183, 183, 109, 183, 183, 183, 183, 183, 183, 183, 183, 183, 183,
   183, 183, 183, 183, 183, 183, 183, 183, 135, 183, 183, 183, 183, 183, 183, 183, 183, 183, 183, 183,
   150, 183, 183, 183, 183, 183, 183, 183, 183, 183, 183, 183, 183, 183, 183, 2, 2, 2, 2, 2,
   2, 2, 2, 2, 2, 2, 2, 2, 2, 2, 2, 2, 2, 2, 2, 2, 2, 2, 2, 2,
   2, 2, 2, 2, 2, 2, 2, 2, 2, 2, 2, 2, 2, 2, 2, 2, 2, 2, 2, 2,
   2, 2, 2, 2, 2, 2, 2, 2, 2, 2, 2, 2, 2, 2, 2, 2, 2, 2, 2, 2,
   2, 2, 2, 2, 2, 2, 2, 2, 2, 2, 2, 2, 2, 2, 2, 2, 2, 2, 2, 2,
   2, 2, 2, 2, 2, 2, 2, 2, 2, 2, 2, 2, 2, 2, 2, 2, 2, 2, 2, 2,
   2, 2, 2, 2, 2, 2, 2, 2, 2, 2, 2, 2, 2, 2, 2, 2, 2, 2, 2, 2,
   2, 2, 2, 0, 183, 183, 183, 183, 183, 183, 183, 183, 183, 20, 183, 22, 23, 24, 183, 183,
   183, 29, 183, 183, 183, 32, 35, 183, 183, 183, 183, 183, 41, 183, 183, 183, 46, 47, 183, 183,
   183, 183, 183, 183, 183, 183, 57, 183, 183, 183, 183, 63, 64, 183, 183, 68, 183, 70, 71, 183,
   183, 183, 183, 183, 183, 84, 183, 87, 89, 90, 183, 92, 183, 183, 95, 183, 183, 183, 183, 183,
   106, 183, 183, 183, 183, 115, 183, 183, 118, 183, 183, 183, 183, 123, 183, 183, 183, 183, 183, 129,
   183, 183, 183, 183, 137, 138, 183, 183, 183, 183, 183, 145, 146, 147, 183, 152, 183, 183, 183, 183,
   183, 183, 183, 183, 183, 162, 183, 164, 183, 166, 167, 2, 2, 2, 2, 2, 2, 2, 2, 2,
   2, 2, 2, 2, 2, 2, 2, 2, 2, 2, 2, 2, 2, 2, 2, 2, 2, 2, 2, 2,
   2, 2, 2, 2, 2, 2, 2, 2, 2, 2, 2, 2, 2, 2, 2, 2, 2, 2, 2, 2,
   2, 2, 2, 2, 2, 2, 2, 2, 2, 2, 2, 2, 2, 2, 2, 2, 2, 2, 2, 2,
   2, 2, 2, 2, 2, 2, 2, 2, 2, 2, 2, 2, 2, 2, 2, 2, 2, 2, 2, 2,
   2, 2, 2, 2, 2, 2, 2, 2, 2, 2, 2, 2, 2, 2, 2, 2, 2, 2, 2, 2,
   2, 2, 2, 2, 2, 2, 2, 2, 2, 2, 2, 2, 2, 2, 2, 2, 2, 2, 2, 0,
   6, 8, 183, 11, 183, 15, 183, 183, 183, 183, 183, 183, 183, 183, 183, 31, 183, 183, 183, 183,
   183, 183, 40, 183, 183, 183, 183, 183, 183, 183, 183, 183, 183, 183, 56, 58, 183, 183, 183, 183,
   66, 183, 72, 74, 183, 77, 78, 183, 183, 183, 183, 91, 93, 183, 96, 97, 183, 100, 183, 183,
   183, 183, 113, 114, 183, 183, 183, 183, 183, 122, 183, 183, 183, 127, 183, 183, 183, 183, 136, 183,
   183, 183, 142, 183, 183, 183, 183, 183, 155, 183, 183, 183, 159, 183, 183, 183, 165, 168, 2, 2,
   2, 2, 2, 2, 2, 2, 2, 2, 2, 2, 2, 2, 2, 2, 2, 2, 2, 2, 2, 2,
   2, 2, 2, 2, 2, 2, 2, 2, 2, 2, 2, 2, 2, 2, 2, 2, 2, 2, 2, 2,
   2, 2, 2, 2, 2, 2, 2, 2, 2, 2, 2, 2, 2, 2, 2, 2, 2, 2, 2, 2,
   2, 2, 2, 2, 2, 2, 2, 2, 2, 2, 2, 2, 2, 2, 2, 2, 2, 2, 2, 2,
   2, 2, 2, 2, 2, 2, 2, 2, 2, 2, 2, 2, 2, 2, 2, 2, 2, 0, 183, 14,
   183, 17, 183, 183, 183, 25, 27, 183, 30, 183, 183, 183, 183, 183, 39, 183, 43, 183, 45, 183,
   50, 51, 183, 53, 183, 183, 183, 183, 62, 65, 67, 69, 75, 79, 183, 183, 183, 86, 94, 98,
   101, 183, 105, 183, 110, 183, 183, 183, 183, 183, 183, 125, 183, 183, 130, 132, 134, 183, 140, 183,
   143, 183, 183, 183, 183, 183, 156, 157, 158, 160, 183, 183, 2, 2, 2, 2, 2, 2, 2, 2,
   2, 2, 2, 2, 2, 2, 2, 2, 2, 2, 2, 2, 2, 2, 2, 2, 2, 2, 2, 2,
   2, 2, 2, 2, 2, 2, 2, 2, 2, 2, 2, 2, 2, 2, 2, 2, 2, 2, 2, 2,
   2, 2, 2, 2, 2, 2, 2, 2, 2, 2, 2, 2, 2, 2, 2, 2, 2, 2, 2, 2,
   2, 2, 2, 2, 2, 2, 2, 0, 9, 16, 18, 21, 183, 26, 28, 183, 183, 183, 37, 38,
   183, 183, 183, 52, 54, 55, 183, 61, 81, 183, 183, 99, 102, 183, 183, 183, 183, 120, 121, 183,
   183, 183, 131, 133, 183, 141, 183, 183, 183, 183, 183, 161, 163, 2, 2, 2, 2, 2, 2, 2,
   2, 2, 2, 2, 2, 2, 2, 2, 2, 2, 2, 2, 2, 2, 2, 2, 2, 2, 2, 2,
   2, 2, 2, 2, 2, 2, 2, 2, 2, 2, 2, 2, 2, 2, 2, 2, 2, 2, 2, 0,
   183, 0, 33, 183, 42, 44, 48, 183, 183, 83, 107, 183, 183, 183, 183, 126, 128, 139, 183, 183,
   183, 153, 183, 2, 2, 2, 2, 2, 2, 2, 2, 2, 2, 2, 2, 2, 2, 2, 2, 2,
   2, 2, 2, 2, 2, 2, 2, 0, 183, 0, 183, 59, 82, 183, 117, 119, 183, 144, 148, 183,
   154, 2, 2, 2, 2, 2, 2, 2, 2, 2, 2, 2, 2, 2, 2, 0, 0, 0, 36, 116,
   124, 183, 2, 2, 2, 2, 2, 2, 2, 0, 0, 169, 151, 2, 2, 2, 2, 0, 0, 2,
   2, 0, 0, 2, 2, 0, 0, 2, 2, 0, 0, 2, 2, 0, 0, 2, 2, 0, 170, 2,
   2, 0, 2, 0, 2, 180, 2, 0]

/-- src/parser/flex_lexer.cpp:513-543, `yy_ec` (256 entries). -/
def yy_ec : List Nat :=
  [0, 1, 1, 1, 1, 1, 1, 1, 1, 2, 3, 1, 1, 1, 1, 1, 1, 1, 1, 1,
   1, 1, 1, 1, 1, 1, 1, 1, 1, 1, 1, 1, 2, 4, 5, 1, 1, 6, 1, 7,
   6, 6, 6, 6, 6, 8, 9, 6, 10, 11, 12, 13, 14, 15, 16, 17, 18, 19, 6, 6,
   20, 21, 22, 6, 1, 23, 24, 25, 26, 27, 28, 29, 30, 31, 32, 33, 34, 35, 36, 37,
   38, 39, 40, 41, 42, 43, 44, 45, 46, 47, 48, 6, 1, 6, 6, 49, 1, 50, 51, 52,
   53, 54, 55, 56, 57, 58, 59, 60, 61, 62, 63, 64, 65, 66, 67, 68, 69, 70, 71, 72,
   73, 74, 75, 6, 76, 6, 1, 1, 1, 1, 1, 1, 1, 1, 1, 1, 1, 1, 1, 1,
   1, 1, 1, 1, 1, 1, 1, 1, 1, 1, 1, 1, 1, 1, 1, 1, 1, 1, 1, 1,
   1, 1, 1, 1, 1, 1, 1, 1, 1, 1, 1, 1, 1, 1, 1, 1, 1, 1, 1, 1,
   1, 1, 1, 1, 1, 1, 1, 1, 1, 1, 1, 1, 1, 1, 1, 1, 1, 1, 1, 1,
   1, 1, 1, 1, 1, 1, 1, 1, 1, 1, 1, 1, 1, 1, 1, 1, 1, 1, 1, 1,
   1, 1, 1, 1, 1, 1, 1, 1, 1, 1, 1, 1, 1, 1, 1, 1, 1, 1, 1, 1,
   1, 1, 1, 1, 1, 1, 1, 1, 1, 1, 1, 1, 1, 1, 1, 1]

/-- src/parser/flex_lexer.cpp:545-555, `yy_meta` (77 entries). -/
def yy_meta : List Nat :=
  [0, 1, 1, 2, 1, 3, 1, 4, 1, 1, 5, 5, 5, 5, 5, 5, 5, 5, 5, 5,
   1, 1, 1, 5, 5, 5, 5, 5, 5, 5, 5, 5, 5, 5, 5, 5, 5, 5, 5, 5,
   5, 5, 5, 5, 5, 5, 5, 5, 5, 5, 5, 5, 5, 5, 5, 5, 5, 5, 5, 5,
   5, 5, 5, 5, 5, 5, 5, 5, 5, 5, 5, 5, 5, 5, 5, 5, 1]

/-- src/parser/flex_lexer.cpp:557-710, `yy_base` (1375 entries). -/
def yy_base : List Nat :=
  [0, 0, 0, 852, 842, 76, 0, 842, 8955, 151, 153, 786, 0, 8955, 8955, 149, 148, 160, 159, 778,
   775, 156, 156, 165, 210, 202, 255, 151, 163, 265, 152, 171, 215, 218, 244, 295, 257, 0, 309, 349,
   392, 163, 279, 226, 180, 676, 0, 741, 0, 237, 251, 696, 702, 0, 0, 243, 378, 451, 237, 682,
   680, 470, 546, 600, 652, 700, 752, 384, 458, 795, 466, 532, 533, 534, 846, 895, 944, 547, 602, 990,
   1042, 307, 650, 587, 651, 596, 301, 8955, 666, 8955, 636, 1107, 1117, 1128, 8955, 8955, 8955, 8955, 0, 218,
   243, 300, 328, 250, 305, 379, 315, 319, 0, 376, 354, 694, 389, 345, 440, 710, 387, 388, 436, 439,
   476, 463, 763, 460, 465, 480, 542, 481, 501, 521, 535, 591, 539, 546, 0, 584, 581, 627, 592, 607,
   637, 657, 658, 717, 646, 658, 686, 681, 734, 705, 720, 717, 0, 751, 739, 757, 745, 764, 766, 755,
   810, 769, 792, 770, 810, 811, 808, 817, 803, 822, 823, 842, 827, 820, 842, 871, 861, 858, 862, 866,
   897, 872, 859, 879, 8955, 0, 8955, 0, 396, 0, 631, 0, 614, 1138, 1148, 1159, 0, 0, 0, 0,
   942, 945, 1029, 990, 1156, 1034, 1155, 1202, 934, 1030, 1168, 1199, 1218, 1258, 1251, 1270, 1285, 1337, 1334, 1345,
   1372, 1272, 1422, 1391, 1471, 1399, 1443, 1397, 1481, 1483, 1492, 1519, 1531, 1535, 1546, 1577, 1576, 1594, 1624, 1673,
   1623, 1629, 1648, 1673, 1721, 1773, 1677, 1719, 1765, 1774, 1814, 1817, 1838, 1861, 1830, 1874, 1897, 1712, 1909, 1941,
   1730, 1916, 1993, 1946, 1972, 1990, 2042, 2015, 2033, 2059, 2081, 2093, 2095, 2127, 2123, 2145, 2147, 2183, 2230, 2191,
   2177, 2222, 2239, 2265, 2274, 2287, 0, 8955, 601, 2352, 0, 882, 0, 903, 900, 0, 933, 0, 940, 954,
   941, 960, 988, 1001, 1156, 1038, 1038, 1050, 1044, 1137, 1162, 1145, 1147, 1166, 1153, 1166, 1203, 1216, 1260, 1221,
   1220, 1207, 1226, 1215, 1229, 1247, 0, 1280, 1309, 1317, 1309, 1321, 1317, 1317, 1339, 1344, 1356, 1369, 1376, 1378,
   1390, 1379, 1412, 1422, 1423, 1426, 1437, 1436, 1449, 1451, 1480, 1537, 1469, 1488, 0, 1490, 1516, 1530, 1537, 1593,
   1538, 1543, 1532, 1555, 1557, 0, 1592, 1602, 1606, 1613, 1638, 1640, 1630, 1682, 1672, 1753, 1727, 1734, 1739, 1770,
   1779, 1761, 1782, 1779, 1776, 1795, 1790, 1838, 0, 1827, 1824, 1867, 1880, 1875, 1876, 1887, 1888, 1886, 1918, 1932,
   0, 1933, 1974, 1934, 1993, 1948, 1999, 1987, 1998, 2046, 2027, 2032, 2064, 2045, 2074, 0, 600, 2362, 2355, 2356,
   2357, 2358, 2281, 2392, 2400, 2401, 2412, 2440, 2448, 2453, 2455, 2469, 2518, 2494, 2519, 2532, 2568, 2544, 2580, 2578,
   2609, 2621, 2623, 2637, 2662, 2680, 2677, 2712, 2721, 2730, 2756, 2771, 2769, 2774, 2810, 2819, 2824, 2854, 2826, 2829,
   2869, 2880, 2880, 2902, 2921, 2934, 2943, 2968, 2979, 2992, 3015, 3017, 3032, 3058, 3066, 3080, 3092, 3104, 3106, 3118,
   3130, 3145, 3149, 3173, 3174, 3193, 3218, 3270, 3196, 3232, 3267, 3231, 3292, 3295, 3320, 3327, 3341, 3355, 3366, 3380,
   3395, 3447, 3395, 3497, 3430, 3473, 3414, 3493, 3532, 3541, 3544, 3551, 3575, 3576, 3595, 3598, 3600, 3630, 3644, 3649,
   3605, 3659, 3683, 3697, 3701, 3737, 3741, 3749, 3754, 3781, 3797, 3798, 3830, 3844, 3856, 3844, 3885, 3888, 3891, 3926,
   3935, 3944, 3970, 582, 2085, 2089, 2090, 2091, 2104, 2130, 2148, 2147, 2171, 0, 2192, 0, 0, 2193, 2197, 2215,
   2208, 0, 2218, 2230, 2245, 2238, 0, 2248, 2273, 2277, 2283, 2303, 2290, 2306, 2302, 2356, 0, 0, 2365, 2359,
   2360, 2357, 2403, 2428, 2431, 2429, 0, 2440, 2455, 2466, 2476, 0, 0, 2485, 2475, 0, 2511, 0, 2510, 2526,
   2517, 2555, 2564, 2569, 2600, 0, 2586, 0, 0, 0, 2591, 0, 2601, 2626, 0, 2634, 2660, 2633, 2625, 2663,
   0, 2681, 2686, 2675, 2678, 0, 2688, 2716, 0, 2728, 2739, 2740, 2738, 0, 2757, 2777, 2773, 2775, 2798, 0,
   2791, 2795, 2834, 2868, 0, 0, 2862, 2877, 2882, 2892, 2883, 0, 0, 2883, 2904, 0, 2925, 2915, 2923, 2921,
   2945, 2931, 2950, 2956, 2982, 0, 2973, 0, 2992, 0, 2982, 544, 3979, 3988, 4017, 4026, 4039, 4026, 4051, 4076,
   4077, 4089, 4111, 4119, 4133, 4145, 4159, 4171, 4197, 4185, 4199, 4206, 4223, 4249, 4235, 4249, 4270, 4293, 4306, 4336,
   4344, 4362, 4261, 4385, 4386, 4404, 4430, 4444, 4458, 4472, 4486, 4502, 4528, 4519, 4545, 4553, 4567, 4579, 4597, 4605,
   4619, 4631, 4649, 4657, 4656, 4684, 4692, 4685, 4727, 4700, 4736, 4752, 4797, 4766, 4794, 4808, 4827, 4838, 4841, 4857,
   4871, 4896, 4904, 4909, 4911, 4925, 4951, 4963, 4968, 4976, 4998, 5017, 5036, 5051, 5077, 5080, 5089, 5115, 5133, 5134,
   5159, 5168, 5187, 5209, 5212, 5238, 5250, 5241, 5263, 4970, 5294, 5289, 5302, 5307, 5024, 5321, 5343, 5346, 5351, 5365,
   5387, 5392, 5396, 5422, 5441, 5438, 5464, 5483, 5497, 5494, 5525, 5449, 5542, 5537, 5576, 5577, 5578, 5590, 5592, 543,
   0, 0, 3009, 0, 3040, 0, 3046, 3035, 3059, 3061, 3090, 3085, 3094, 3110, 3142, 0, 3135, 3144, 3152, 3176,
   3195, 3210, 0, 3208, 3211, 3239, 3254, 3253, 3264, 3267, 3271, 3286, 3302, 3313, 0, 0, 3300, 3323, 3316, 3337,
   3342, 3363, 0, 0, 3364, 0, 0, 3370, 3398, 3442, 3411, 0, 0, 3420, 0, 0, 3434, 3438, 3458, 3443,
   3460, 3454, 0, 0, 3472, 3458, 3489, 3478, 3485, 0, 3510, 3512, 3519, 0, 3530, 3550, 3567, 3575, 0, 3597,
   3607, 3640, 3624, 3639, 3640, 3660, 3662, 3663, 0, 3694, 3704, 3707, 0, 3695, 3717, 3718, 0, 0, 536, 5622,
   5625, 5633, 5636, 5676, 5684, 5685, 5710, 5738, 5729, 5764, 5763, 5764, 5792, 5814, 5816, 5808, 5828, 5846, 5864, 5862,
   5882, 5890, 5912, 5920, 5919, 5944, 5946, 5968, 5970, 5994, 5999, 6019, 6022, 6024, 6048, 6060, 6063, 6089, 6067, 6105,
   6116, 6108, 6146, 6149, 6152, 6160, 6190, 6203, 6201, 6232, 6245, 6246, 6276, 6287, 6290, 6315, 6320, 6334, 6358, 6376,
   6367, 6407, 6411, 6419, 6434, 6459, 6460, 6488, 6489, 6513, 6514, 6527, 6539, 6542, 6567, 6581, 6568, 6593, 6596, 6622,
   6635, 6627, 6667, 6670, 6691, 6719, 6683, 6727, 6739, 6752, 6744, 6780, 6778, 6799, 6825, 6822, 6843, 526, 3718, 0,
   3748, 0, 3753, 3765, 3751, 3753, 0, 3765, 0, 3790, 3801, 3812, 3805, 3799, 0, 3822, 0, 3822, 0, 3819,
   0, 0, 3862, 0, 3875, 3873, 3892, 3903, 0, 0, 0, 0, 0, 0, 3903, 3930, 3942, 0, 0, 3932,
   0, 3948, 0, 3968, 0, 3972, 3992, 4001, 4031, 4018, 4032, 0, 4044, 4049, 4061, 4077, 0, 4091, 0, 4094,
   0, 4107, 4109, 4115, 4110, 4136, 0, 0, 0, 0, 4134, 4144, 525, 6860, 6865, 6867, 6881, 6897, 6910, 6919,
   6935, 6944, 6953, 6977, 6986, 6995, 7026, 7030, 7039, 7070, 7081, 7084, 7112, 7125, 7126, 7156, 7167, 7169, 7178, 7203,
   7212, 7214, 7221, 7256, 7257, 7265, 7298, 7301, 7307, 7342, 7350, 7369, 7364, 7394, 7396, 7410, 7419, 7438, 7452, 7471,
   7480, 7500, 7509, 7524, 7538, 7516, 7559, 7565, 7589, 7603, 7612, 7631, 7645, 7654, 7673, 7687, 7701, 7720, 7743, 7744,
   7774, 7785, 7788, 7804, 7818, 7834, 7837, 529, 0, 0, 0, 0, 4157, 0, 0, 436, 4161, 4177, 0, 0,
   4177, 4196, 4219, 0, 0, 0, 4258, 0, 0, 4276, 4280, 0, 0, 4284, 4299, 4293, 4301, 0, 0, 4319,
   4304, 4316, 0, 0, 4320, 0, 4325, 4333, 4341, 4361, 4364, 0, 0, 527, 7848, 7872, 7878, 7881, 7901, 7916,
   7925, 7955, 7940, 7970, 7969, 7984, 7999, 8008, 8038, 8033, 8052, 8074, 8013, 8054, 8084, 8108, 8095, 8131, 8139, 8150,
   8151, 8156, 8185, 8188, 8199, 8218, 8232, 8251, 8262, 8281, 8292, 8295, 8311, 8335, 8341, 8358, 8380, 8388, 8393, 526,
   4361, 4434, 0, 4360, 0, 0, 0, 4377, 4374, 0, 0, 4384, 4398, 4412, 4415, 0, 0, 0, 4405, 4419,
   4429, 0, 4436, 524, 8418, 4781, 8406, 8432, 8444, 8446, 8468, 8480, 8498, 8506, 8524, 8546, 8551, 8555, 8568, 8590,
   8598, 8603, 8612, 8642, 8644, 8647, 8656, 514, 438, 4433, 4446, 0, 0, 4434, 0, 0, 4469, 0, 0, 4477,
   0, 506, 8710, 4493, 8688, 8696, 8697, 8731, 8739, 8742, 8745, 8775, 8783, 8795, 8800, 470, 4558, 4499, 0, 0,
   0, 4522, 468, 4698, 4536, 8803, 8808, 8844, 8842, 465, 4563, 8955, 0, 418, 4565, 0, 8851, 418, 4572, 390,
   4578, 388, 4583, 386, 4591, 347, 4609, 343, 4617, 338, 4628, 335, 4636, 334, 4653, 332, 4679, 303, 8955, 293,
   0, 299, 286, 248, 243, 8955, 0, 8955, 8924, 8929, 201, 8934, 8939, 8944, 8949]

/-- src/parser/flex_lexer.cpp:712-865, `yy_def` (1375 entries). -/
def yy_def : List Nat :=
  [0, 1367, 1, 1368, 1368, 1367, 5, 1367, 1367, 1367, 1367, 1367, 1369, 1367, 1367, 1367, 1367, 1367, 1367, 1367,
   1367, 1370, 1370, 1370, 1370, 1370, 1370, 1370, 1370, 1370, 1370, 1370, 1370, 1370, 1370, 1370, 1370, 1370, 1370, 1370,
   1370, 1370, 1370, 1370, 1370, 1367, 1371, 1367, 1372, 1372, 1367, 1372, 1373, 1372, 1372, 1372, 1372, 1372, 1372, 1372,
   1372, 1374, 1374, 62, 62, 62, 63, 65, 62, 65, 62, 62, 62, 62, 63, 63, 63, 62, 62, 62,
   62, 65, 62, 62, 62, 1372, 1367, 1367, 1369, 1367, 1367, 1367, 1367, 1367, 1367, 1367, 1367, 1367, 1370, 1370,
   1370, 1370, 1370, 1370, 1370, 1370, 1370, 1370, 1370, 1370, 1370, 1370, 1370, 1370, 1370, 1370, 1370, 1370, 1370, 1370,
   1370, 1370, 1370, 1370, 1370, 1370, 1370, 1370, 1370, 1370, 1370, 1370, 1370, 1370, 1370, 1370, 1370, 1370, 1370, 1370,
   1370, 1370, 1370, 1370, 1370, 1370, 1370, 1370, 1370, 1370, 1370, 1370, 1370, 1370, 1370, 1370, 1370, 1370, 1370, 1370,
   1370, 1370, 1370, 1370, 1370, 1370, 1370, 1370, 1370, 1370, 1370, 1370, 1370, 1370, 1370, 1370, 1370, 1370, 1370, 1370,
   1370, 1370, 1370, 1370, 1367, 1371, 1367, 1372, 1372, 1372, 1373, 1372, 1372, 1372, 1372, 1372, 1372, 1372, 1372, 1372,
   62, 62, 62, 65, 65, 65, 65, 65, 65, 62, 62, 65, 65, 65, 62, 62, 62, 65, 65, 65,
   62, 65, 65, 65, 62, 65, 65, 62, 65, 62, 65, 62, 62, 65, 65, 65, 65, 62, 62, 65,
   65, 62, 62, 62, 62, 65, 65, 65, 65, 65, 65, 65, 65, 65, 65, 65, 65, 62, 62, 62,
   62, 65, 65, 65, 65, 65, 65, 62, 62, 62, 62, 62, 62, 65, 62, 62, 62, 63, 62, 62,
   62, 65, 62, 62, 62, 62, 1372, 1367, 1367, 1367, 1370, 1370, 1370, 1370, 1370, 1370, 1370, 1370, 1370, 1370,
   1370, 1370, 1370, 1370, 1370, 1370, 1370, 1370, 1370, 1370, 1370, 1370, 1370, 1370, 1370, 1370, 1370, 1370, 1370, 1370,
   1370, 1370, 1370, 1370, 1370, 1370, 1370, 1370, 1370, 1370, 1370, 1370, 1370, 1370, 1370, 1370, 1370, 1370, 1370, 1370,
   1370, 1370, 1370, 1370, 1370, 1370, 1370, 1370, 1370, 1370, 1370, 1370, 1370, 1370, 1370, 1370, 1370, 1370, 1370, 1370,
   1370, 1370, 1370, 1370, 1370, 1370, 1370, 1370, 1370, 1370, 1370, 1370, 1370, 1370, 1370, 1370, 1370, 1370, 1370, 1370,
   1370, 1370, 1370, 1370, 1370, 1370, 1370, 1370, 1370, 1370, 1370, 1370, 1370, 1370, 1370, 1370, 1370, 1370, 1370, 1370,
   1370, 1370, 1370, 1370, 1370, 1370, 1370, 1370, 1370, 1370, 1370, 1370, 1370, 1370, 1370, 1372, 1372, 1372, 62, 62,
   62, 62, 65, 65, 65, 65, 62, 62, 62, 62, 65, 65, 62, 62, 62, 62, 62, 62, 62, 65,
   65, 62, 65, 65, 62, 62, 62, 62, 62, 62, 62, 62, 62, 62, 62, 62, 62, 62, 65, 65,
   65, 65, 62, 62, 65, 62, 62, 65, 65, 65, 65, 62, 62, 62, 62, 62, 62, 62, 62, 62,
   62, 65, 65, 65, 62, 62, 62, 62, 62, 62, 62, 62, 62, 62, 62, 65, 65, 65, 62, 62,
   62, 62, 65, 65, 65, 65, 65, 62, 62, 62, 62, 65, 65, 62, 62, 62, 62, 62, 62, 62,
   65, 65, 65, 65, 65, 65, 65, 62, 62, 65, 65, 62, 62, 62, 62, 65, 65, 65, 65, 65,
   65, 65, 65, 1367, 1370, 1370, 1370, 1370, 1370, 1370, 1370, 1370, 1370, 1370, 1370, 1370, 1370, 1370, 1370, 1370,
   1370, 1370, 1370, 1370, 1370, 1370, 1370, 1370, 1370, 1370, 1370, 1370, 1370, 1370, 1370, 1370, 1370, 1370, 1370, 1370,
   1370, 1370, 1370, 1370, 1370, 1370, 1370, 1370, 1370, 1370, 1370, 1370, 1370, 1370, 1370, 1370, 1370, 1370, 1370, 1370,
   1370, 1370, 1370, 1370, 1370, 1370, 1370, 1370, 1370, 1370, 1370, 1370, 1370, 1370, 1370, 1370, 1370, 1370, 1370, 1370,
   1370, 1370, 1370, 1370, 1370, 1370, 1370, 1370, 1370, 1370, 1370, 1370, 1370, 1370, 1370, 1370, 1370, 1370, 1370, 1370,
   1370, 1370, 1370, 1370, 1370, 1370, 1370, 1370, 1370, 1370, 1370, 1370, 1370, 1370, 1370, 1370, 1370, 1370, 1370, 1370,
   1370, 1370, 1370, 1370, 1370, 1370, 1370, 1370, 1370, 1370, 1370, 1372, 65, 65, 62, 62, 62, 65, 62, 65,
   62, 62, 62, 62, 62, 62, 62, 62, 62, 62, 62, 65, 62, 62, 62, 65, 65, 65, 65, 65,
   65, 65, 62, 65, 65, 65, 65, 65, 65, 65, 65, 65, 65, 62, 62, 62, 62, 62, 62, 62,
   62, 62, 62, 62, 65, 65, 65, 62, 62, 65, 65, 65, 65, 65, 65, 65, 65, 65, 65, 65,
   65, 62, 62, 62, 65, 65, 65, 62, 62, 62, 62, 62, 62, 62, 62, 62, 62, 62, 62, 62,
   62, 62, 62, 62, 62, 62, 62, 62, 62, 65, 65, 62, 62, 62, 65, 62, 62, 62, 62, 62,
   62, 65, 65, 65, 65, 65, 65, 65, 65, 65, 65, 62, 62, 62, 62, 62, 62, 62, 65, 1367,
   1370, 1370, 1370, 1370, 1370, 1370, 1370, 1370, 1370, 1370, 1370, 1370, 1370, 1370, 1370, 1370, 1370, 1370, 1370, 1370,
   1370, 1370, 1370, 1370, 1370, 1370, 1370, 1370, 1370, 1370, 1370, 1370, 1370, 1370, 1370, 1370, 1370, 1370, 1370, 1370,
   1370, 1370, 1370, 1370, 1370, 1370, 1370, 1370, 1370, 1370, 1370, 1370, 1370, 1370, 1370, 1370, 1370, 1370, 1370, 1370,
   1370, 1370, 1370, 1370, 1370, 1370, 1370, 1370, 1370, 1370, 1370, 1370, 1370, 1370, 1370, 1370, 1370, 1370, 1370, 1370,
   1370, 1370, 1370, 1370, 1370, 1370, 1370, 1370, 1370, 1370, 1370, 1370, 1370, 1370, 1370, 1370, 1370, 1370, 1372, 65,
   65, 65, 65, 62, 62, 62, 62, 62, 62, 62, 65, 65, 62, 62, 62, 65, 62, 62, 62, 65,
   62, 62, 62, 62, 65, 62, 62, 62, 62, 62, 65, 62, 62, 62, 62, 62, 62, 62, 65, 65,
   65, 65, 65, 65, 65, 65, 65, 62, 65, 65, 65, 65, 65, 65, 65, 62, 65, 65, 65, 65,
   65, 65, 65, 62, 62, 62, 62, 62, 62, 62, 62, 62, 62, 62, 62, 62, 62, 62, 62, 62,
   62, 65, 65, 65, 65, 65, 65, 65, 62, 62, 62, 62, 65, 65, 65, 65, 65, 1367, 1370, 1370,
   1370, 1370, 1370, 1370, 1370, 1370, 1370, 1370, 1370, 1370, 1370, 1370, 1370, 1370, 1370, 1370, 1370, 1370, 1370, 1370,
   1370, 1370, 1370, 1370, 1370, 1370, 1370, 1370, 1370, 1370, 1370, 1370, 1370, 1370, 1370, 1370, 1370, 1370, 1370, 1370,
   1370, 1370, 1370, 1370, 1370, 1370, 1370, 1370, 1370, 1370, 1370, 1370, 1370, 1370, 1370, 1370, 1370, 1370, 1370, 1370,
   1370, 1370, 1370, 1370, 1370, 1370, 1370, 1370, 1370, 1370, 1370, 1370, 1372, 62, 62, 65, 65, 65, 62, 62,
   65, 65, 65, 65, 65, 65, 65, 65, 65, 65, 65, 65, 65, 65, 65, 65, 65, 62, 62, 65,
   65, 62, 65, 65, 65, 65, 65, 65, 65, 65, 62, 62, 62, 62, 65, 65, 65, 65, 65, 65,
   65, 62, 62, 62, 62, 65, 65, 65, 65, 65, 65, 65, 65, 65, 65, 65, 65, 65, 65, 65,
   65, 65, 65, 65, 65, 65, 65, 1367, 1370, 1370, 1370, 1370, 1370, 1370, 1370, 1370, 1370, 1370, 1370, 1370,
   1370, 1370, 1370, 1370, 1370, 1370, 1370, 1370, 1370, 1370, 1370, 1370, 1370, 1370, 1370, 1370, 1370, 1370, 1370, 1370,
   1370, 1370, 1370, 1370, 1370, 1370, 1370, 1370, 1370, 1370, 1370, 1370, 1370, 1372, 65, 65, 65, 65, 62, 62,
   62, 62, 62, 62, 62, 62, 62, 62, 62, 62, 62, 62, 65, 65, 65, 65, 65, 65, 65, 65,
   62, 62, 65, 65, 65, 65, 65, 65, 65, 65, 65, 65, 65, 65, 65, 62, 62, 62, 62, 1367,
   1370, 1367, 1370, 1370, 1370, 1370, 1370, 1370, 1370, 1370, 1370, 1370, 1370, 1370, 1370, 1370, 1370, 1370, 1370, 1370,
   1370, 1370, 1370, 1372, 62, 1372, 62, 62, 62, 62, 62, 62, 62, 62, 62, 62, 65, 65, 62, 62,
   62, 62, 62, 62, 62, 62, 62, 1367, 1370, 1367, 1370, 1370, 1370, 1370, 1370, 1370, 1370, 1370, 1370, 1370,
   1370, 1372, 62, 1372, 62, 62, 62, 65, 65, 65, 65, 65, 65, 62, 62, 1367, 1367, 1367, 1370, 1370,
   1370, 1370, 1372, 1372, 1372, 62, 62, 62, 65, 1367, 1367, 1367, 1370, 1372, 1372, 1372, 65, 1367, 1367, 1372,
   1372, 1367, 1367, 1372, 1372, 1367, 1367, 1372, 1372, 1367, 1367, 1372, 1372, 1367, 1367, 1372, 1372, 1367, 1367, 1372,
   1372, 1367, 1372, 1367, 1372, 1367, 1372, 0, 1367, 1367, 1367, 1367, 1367, 1367, 1367]

/-- src/parser/flex_lexer.cpp:867-1863, `yy_nxt` (9032 entries). -/
def yy_nxt : List Nat :=
  [0, 8, 9, 10, 11, 12, 13, 14, 15, 16, 17, 17, 17, 17, 17, 17, 17, 17, 17, 17,
   18, 19, 20, 21, 22, 23, 24, 25, 26, 27, 28, 29, 30, 31, 32, 33, 34, 35, 36, 37,
   38, 39, 40, 41, 42, 43, 37, 44, 37, 8, 21, 22, 23, 24, 25, 26, 27, 28, 29, 30,
   31, 32, 33, 34, 35, 36, 37, 38, 39, 40, 41, 42, 43, 37, 44, 37, 45, 48, 49, 50,
   51, 52, 53, 54, 55, 56, 57, 57, 57, 57, 57, 57, 57, 57, 57, 57, 58, 59, 60, 61,
   62, 63, 64, 65, 66, 67, 68, 69, 70, 71, 72, 73, 74, 75, 76, 77, 78, 79, 80, 81,
   82, 83, 77, 84, 77, 48, 61, 62, 63, 64, 65, 66, 67, 68, 69, 70, 71, 72, 73, 74,
   75, 76, 77, 78, 79, 80, 81, 82, 83, 77, 84, 77, 85, 86, 86, 86, 86, 89, 91, 91,
   91, 91, 91, 91, 91, 91, 91, 91, 90, 92, 93, 93, 93, 93, 93, 93, 93, 93, 93, 93,
   94, 95, 99, 105, 100, 129, 131, 106, 109, 139, 101, 130, 102, 107, 132, 110, 103, 104, 140, 176,
   133, 177, 111, 108, 178, 112, 98, 183, 113, 99, 105, 100, 129, 131, 106, 109, 139, 101, 130, 102,
   107, 132, 110, 103, 104, 140, 176, 133, 177, 111, 108, 178, 112, 114, 183, 113, 119, 115, 120, 188,
   86, 116, 141, 121, 290, 144, 142, 117, 122, 145, 118, 191, 143, 86, 86, 146, 181, 182, 196, 197,
   114, 1366, 192, 119, 115, 120, 1365, 147, 116, 141, 121, 290, 144, 142, 117, 122, 145, 118, 123, 143,
   156, 148, 146, 181, 182, 291, 124, 149, 150, 125, 296, 157, 126, 134, 147, 127, 1364, 158, 128, 135,
   136, 137, 179, 86, 86, 123, 138, 156, 148, 1363, 180, 1362, 291, 124, 149, 150, 125, 296, 157, 126,
   134, 1361, 127, 151, 158, 128, 135, 136, 137, 179, 297, 152, 159, 138, 292, 153, 160, 180, 154, 155,
   161, 200, 293, 278, 301, 279, 162, 1359, 280, 1357, 151, 294, 1355, 200, 295, 1353, 302, 297, 152, 159,
   1351, 292, 153, 160, 1349, 154, 155, 161, 200, 293, 278, 301, 279, 162, 163, 280, 164, 305, 294, 165,
   200, 295, 166, 302, 167, 312, 168, 169, 193, 193, 193, 193, 193, 193, 193, 193, 193, 193, 188, 86,
   1347, 163, 1345, 164, 305, 1343, 165, 298, 299, 166, 303, 167, 312, 168, 169, 170, 310, 304, 231, 171,
   200, 300, 172, 173, 232, 200, 311, 320, 321, 174, 200, 322, 175, 1341, 298, 299, 1339, 303, 1241, 1241,
   1316, 1316, 170, 310, 304, 231, 171, 200, 300, 172, 173, 232, 200, 311, 320, 321, 174, 200, 322, 175,
   194, 195, 195, 195, 195, 195, 195, 195, 195, 195, 195, 187, 187, 323, 187, 187, 187, 187, 187, 187,
   324, 233, 313, 1337, 1333, 200, 1329, 314, 327, 234, 187, 187, 187, 200, 333, 235, 201, 200, 202, 334,
   323, 325, 326, 241, 203, 200, 204, 324, 233, 313, 205, 206, 200, 200, 314, 327, 234, 335, 338, 1322,
   200, 333, 235, 201, 200, 202, 334, 1315, 325, 326, 241, 203, 200, 204, 1301, 339, 1287, 205, 206, 1263,
   200, 1239, 1193, 1147, 335, 338, 187, 187, 187, 1072, 187, 187, 187, 187, 187, 187, 997, 898, 340, 242,
   243, 246, 339, 200, 244, 247, 187, 187, 187, 200, 245, 248, 341, 207, 200, 344, 336, 208, 200, 200,
   200, 200, 337, 209, 200, 340, 242, 243, 246, 345, 200, 244, 247, 210, 200, 799, 200, 245, 248, 341,
   207, 200, 344, 336, 208, 200, 200, 200, 200, 337, 209, 200, 671, 543, 200, 346, 345, 283, 284, 347,
   210, 200, 187, 211, 200, 261, 416, 200, 352, 262, 212, 200, 342, 263, 200, 343, 415, 213, 353, 264,
   214, 200, 346, 215, 283, 284, 347, 200, 288, 200, 211, 200, 261, 348, 200, 352, 262, 212, 200, 342,
   263, 200, 343, 349, 213, 353, 264, 214, 350, 351, 215, 287, 286, 281, 200, 216, 200, 200, 285, 217,
   348, 282, 200, 218, 354, 355, 361, 200, 200, 219, 349, 356, 220, 357, 362, 350, 351, 200, 200, 200,
   281, 199, 216, 198, 200, 285, 217, 187, 282, 200, 218, 354, 355, 361, 200, 200, 219, 189, 356, 220,
   357, 362, 363, 364, 200, 200, 200, 200, 306, 307, 308, 200, 309, 315, 221, 316, 222, 200, 317, 367,
   358, 223, 359, 368, 318, 369, 224, 200, 186, 363, 364, 319, 184, 360, 200, 306, 307, 308, 200, 309,
   315, 221, 316, 222, 200, 317, 367, 358, 223, 359, 368, 318, 369, 224, 200, 225, 365, 370, 319, 366,
   360, 371, 200, 226, 372, 373, 227, 374, 328, 228, 329, 377, 229, 375, 330, 230, 97, 376, 382, 96,
   385, 331, 225, 365, 370, 332, 366, 87, 371, 200, 226, 372, 373, 227, 374, 328, 228, 329, 377, 229,
   375, 330, 230, 236, 376, 382, 383, 385, 331, 237, 238, 239, 332, 378, 389, 386, 240, 384, 379, 391,
   392, 200, 1367, 393, 387, 394, 380, 395, 390, 47, 236, 381, 388, 383, 398, 399, 237, 238, 239, 47,
   378, 389, 386, 240, 384, 379, 391, 392, 200, 249, 393, 387, 394, 380, 395, 390, 200, 396, 381, 388,
   400, 398, 399, 250, 406, 403, 200, 1367, 397, 251, 252, 1367, 404, 407, 401, 405, 249, 1367, 1367, 412,
   408, 413, 414, 200, 396, 1367, 409, 400, 1367, 544, 250, 406, 403, 200, 402, 397, 251, 252, 200, 404,
   407, 401, 405, 253, 410, 200, 412, 408, 413, 414, 545, 254, 200, 409, 546, 255, 544, 411, 256, 257,
   1367, 402, 1367, 1367, 1367, 200, 1367, 1367, 1367, 1367, 253, 410, 200, 1367, 1367, 1367, 547, 545, 254, 200,
   1367, 546, 255, 429, 411, 256, 257, 258, 200, 200, 200, 418, 200, 200, 200, 200, 200, 548, 259, 200,
   200, 200, 200, 547, 260, 549, 550, 200, 1367, 200, 429, 551, 200, 1367, 258, 200, 200, 200, 418, 200,
   200, 200, 200, 200, 548, 259, 200, 200, 200, 200, 1367, 260, 549, 550, 200, 265, 200, 266, 551, 200,
   267, 200, 552, 268, 420, 269, 200, 270, 271, 1367, 1367, 200, 421, 1367, 1367, 553, 200, 200, 1367, 1367,
   1367, 1367, 265, 1367, 266, 1367, 1367, 267, 200, 552, 268, 420, 269, 200, 270, 271, 200, 200, 200, 421,
   200, 200, 553, 200, 200, 272, 200, 430, 200, 273, 200, 419, 274, 275, 424, 200, 200, 200, 557, 276,
   200, 558, 277, 200, 200, 559, 560, 200, 200, 200, 1367, 1367, 272, 200, 430, 200, 273, 200, 419, 274,
   275, 424, 200, 200, 200, 557, 276, 200, 558, 277, 1367, 1367, 559, 560, 1367, 1367, 200, 91, 91, 91,
   91, 91, 91, 91, 91, 91, 91, 289, 289, 289, 289, 289, 289, 289, 289, 289, 289, 92, 93, 93,
   93, 93, 93, 93, 93, 93, 93, 93, 193, 193, 193, 193, 193, 193, 193, 193, 193, 193, 417, 417,
   417, 417, 417, 417, 417, 417, 417, 417, 194, 195, 195, 195, 195, 195, 195, 195, 195, 195, 195, 422,
   425, 554, 423, 555, 561, 562, 563, 564, 1367, 200, 200, 200, 200, 565, 566, 200, 200, 200, 556, 200,
   567, 200, 200, 1367, 1367, 200, 422, 425, 554, 423, 555, 561, 562, 563, 564, 200, 200, 200, 200, 200,
   565, 566, 200, 200, 200, 556, 200, 567, 200, 200, 426, 427, 200, 431, 568, 200, 200, 1367, 200, 569,
   432, 433, 200, 200, 428, 200, 572, 573, 200, 574, 575, 1367, 200, 576, 200, 1367, 577, 426, 427, 200,
   431, 568, 200, 200, 200, 200, 569, 432, 433, 1367, 200, 428, 200, 572, 573, 200, 574, 575, 438, 200,
   576, 200, 200, 577, 578, 1367, 200, 570, 439, 1367, 1367, 200, 434, 435, 436, 1367, 437, 200, 200, 200,
   1367, 200, 571, 579, 200, 438, 200, 200, 200, 200, 440, 578, 200, 452, 570, 439, 200, 200, 200, 434,
   435, 436, 200, 437, 200, 200, 200, 441, 200, 571, 579, 200, 442, 200, 200, 200, 580, 440, 1367, 200,
   452, 1367, 581, 200, 200, 200, 1367, 1367, 1367, 200, 582, 1367, 1367, 1367, 441, 583, 1367, 584, 585, 442,
   443, 1367, 444, 580, 1367, 445, 586, 587, 200, 581, 200, 446, 1367, 200, 448, 449, 1367, 582, 447, 200,
   200, 200, 583, 200, 584, 585, 200, 443, 450, 444, 588, 200, 445, 586, 587, 200, 589, 200, 446, 200,
   200, 448, 449, 200, 590, 447, 200, 200, 200, 451, 200, 591, 592, 200, 593, 450, 455, 588, 200, 200,
   1367, 1367, 594, 589, 200, 200, 200, 200, 200, 1367, 200, 590, 200, 461, 463, 200, 451, 200, 591, 592,
   200, 593, 595, 455, 200, 200, 200, 453, 454, 594, 1367, 200, 200, 596, 200, 200, 200, 1367, 200, 200,
   461, 463, 200, 200, 200, 597, 598, 200, 200, 595, 599, 200, 200, 600, 453, 454, 601, 462, 602, 200,
   596, 1367, 1367, 200, 200, 200, 1367, 1367, 1367, 200, 200, 1367, 597, 598, 1367, 200, 456, 599, 457, 1367,
   600, 1367, 458, 601, 462, 602, 200, 603, 200, 459, 200, 200, 606, 460, 200, 464, 200, 200, 200, 1367,
   466, 465, 200, 456, 607, 457, 467, 200, 200, 458, 200, 1367, 608, 200, 603, 200, 459, 200, 200, 606,
   460, 200, 464, 609, 200, 200, 200, 466, 465, 200, 200, 607, 1367, 467, 200, 200, 468, 200, 200, 608,
   200, 610, 200, 611, 604, 200, 200, 614, 469, 200, 609, 200, 615, 200, 605, 616, 470, 200, 200, 471,
   200, 200, 472, 468, 1367, 200, 1367, 200, 610, 200, 611, 604, 200, 200, 614, 469, 200, 617, 200, 615,
   618, 605, 616, 470, 1367, 200, 471, 200, 200, 472, 200, 200, 200, 200, 200, 619, 612, 200, 200, 200,
   473, 200, 200, 200, 617, 474, 613, 618, 1367, 1367, 1367, 200, 1367, 1367, 1367, 1367, 620, 200, 200, 200,
   200, 200, 619, 612, 200, 200, 621, 473, 200, 200, 200, 200, 474, 613, 622, 200, 200, 200, 200, 480,
   481, 200, 475, 620, 200, 623, 200, 624, 200, 200, 625, 200, 1367, 621, 1367, 200, 200, 1367, 200, 200,
   1367, 622, 200, 200, 200, 200, 480, 481, 200, 475, 1367, 200, 623, 200, 624, 482, 200, 625, 200, 476,
   200, 483, 200, 200, 200, 626, 200, 200, 628, 477, 200, 200, 200, 200, 478, 479, 1367, 489, 200, 200,
   200, 1367, 482, 200, 627, 1367, 476, 200, 483, 1367, 1367, 200, 626, 1367, 200, 628, 477, 200, 200, 500,
   200, 478, 479, 200, 489, 200, 200, 200, 200, 200, 200, 627, 200, 200, 484, 490, 485, 503, 200, 200,
   200, 504, 631, 632, 1367, 200, 500, 200, 200, 1367, 200, 1367, 1367, 633, 1367, 200, 200, 200, 629, 200,
   200, 484, 490, 485, 503, 200, 200, 200, 504, 631, 632, 630, 200, 1367, 200, 200, 486, 634, 487, 200,
   633, 491, 635, 636, 200, 629, 200, 200, 200, 488, 200, 200, 637, 638, 200, 200, 492, 639, 630, 200,
   200, 1367, 640, 486, 634, 487, 200, 641, 491, 635, 636, 1367, 1367, 200, 200, 200, 488, 200, 200, 637,
   638, 200, 200, 492, 639, 1367, 200, 200, 200, 640, 200, 495, 1367, 200, 641, 200, 493, 1367, 200, 494,
   200, 496, 1367, 200, 200, 642, 200, 643, 1367, 644, 1367, 200, 200, 1367, 200, 200, 200, 200, 495, 200,
   200, 1367, 200, 493, 200, 200, 494, 200, 496, 497, 200, 200, 642, 200, 643, 200, 644, 200, 200, 200,
   498, 200, 200, 200, 1367, 645, 200, 200, 200, 1367, 200, 200, 1367, 1367, 646, 200, 497, 647, 648, 1367,
   200, 649, 200, 1367, 200, 1367, 650, 498, 651, 200, 1367, 200, 645, 200, 200, 200, 200, 200, 200, 499,
   200, 646, 200, 200, 647, 648, 200, 200, 649, 501, 200, 1367, 505, 650, 652, 651, 200, 200, 200, 653,
   200, 1367, 200, 200, 502, 200, 499, 200, 200, 654, 200, 657, 200, 200, 1367, 510, 501, 200, 200, 505,
   200, 652, 200, 200, 200, 660, 653, 200, 200, 200, 1367, 502, 200, 1367, 1367, 200, 654, 1367, 657, 200,
   1367, 655, 510, 1367, 1367, 200, 511, 200, 200, 200, 656, 1367, 660, 200, 200, 200, 506, 512, 200, 200,
   513, 507, 661, 662, 200, 1367, 200, 200, 655, 508, 658, 200, 659, 511, 509, 200, 200, 656, 517, 200,
   200, 663, 200, 506, 512, 200, 200, 513, 507, 661, 662, 200, 518, 200, 200, 1367, 508, 658, 200, 659,
   200, 509, 200, 200, 519, 517, 200, 514, 663, 200, 200, 664, 665, 200, 666, 669, 515, 1367, 200, 518,
   200, 1367, 520, 200, 516, 1367, 200, 200, 200, 200, 200, 519, 1367, 1367, 514, 1367, 200, 200, 664, 665,
   667, 666, 669, 515, 668, 200, 200, 200, 200, 520, 200, 516, 200, 200, 670, 200, 522, 200, 200, 523,
   200, 521, 200, 200, 200, 800, 200, 667, 200, 801, 200, 668, 200, 200, 1367, 200, 1367, 802, 803, 200,
   200, 670, 200, 522, 804, 200, 523, 200, 521, 200, 526, 200, 800, 200, 200, 200, 801, 200, 1367, 200,
   200, 200, 524, 200, 802, 803, 805, 200, 200, 200, 200, 804, 200, 525, 200, 806, 200, 526, 200, 1367,
   527, 200, 200, 807, 200, 528, 1367, 200, 200, 524, 200, 1367, 200, 805, 200, 200, 1367, 200, 808, 200,
   525, 200, 806, 200, 200, 200, 529, 527, 535, 200, 807, 200, 528, 200, 200, 809, 810, 534, 200, 200,
   200, 200, 200, 200, 200, 808, 530, 1367, 200, 1367, 1367, 200, 811, 529, 1367, 535, 1367, 1367, 200, 1367,
   200, 200, 809, 810, 534, 200, 812, 200, 813, 200, 200, 200, 1367, 530, 531, 200, 536, 200, 200, 811,
   814, 532, 537, 200, 533, 200, 538, 200, 200, 1367, 200, 815, 816, 812, 1367, 813, 200, 200, 1367, 539,
   817, 531, 818, 536, 200, 200, 200, 814, 532, 537, 200, 533, 540, 538, 200, 200, 200, 200, 815, 816,
   1367, 200, 200, 200, 200, 200, 539, 817, 819, 818, 542, 200, 200, 200, 200, 674, 541, 200, 200, 540,
   820, 200, 200, 200, 200, 821, 822, 200, 200, 200, 823, 824, 200, 825, 200, 819, 1367, 542, 200, 200,
   1367, 200, 674, 541, 200, 200, 1367, 820, 200, 200, 1367, 200, 821, 822, 200, 1367, 1367, 823, 824, 1367,
   825, 200, 289, 289, 289, 289, 289, 289, 289, 289, 289, 289, 417, 417, 417, 417, 417, 417, 417, 417,
   417, 417, 200, 672, 200, 673, 200, 200, 200, 200, 826, 827, 200, 200, 200, 200, 1367, 828, 829, 1367,
   830, 1367, 200, 200, 200, 200, 1367, 1367, 1367, 200, 672, 200, 673, 200, 200, 200, 200, 826, 827, 200,
   200, 200, 200, 675, 828, 829, 200, 830, 200, 200, 200, 200, 200, 200, 200, 200, 200, 200, 200, 200,
   1367, 200, 200, 200, 1367, 831, 200, 200, 1367, 676, 675, 832, 1367, 200, 833, 200, 834, 1367, 1367, 200,
   200, 200, 200, 200, 200, 200, 200, 200, 200, 200, 200, 677, 831, 200, 200, 200, 676, 200, 832, 200,
   200, 833, 835, 834, 679, 200, 200, 200, 1367, 680, 200, 200, 836, 678, 200, 200, 200, 837, 677, 838,
   200, 200, 200, 681, 200, 200, 200, 200, 839, 835, 200, 679, 200, 840, 200, 200, 680, 200, 200, 836,
   678, 200, 200, 200, 837, 200, 838, 200, 200, 1367, 681, 200, 200, 1367, 685, 839, 1367, 200, 1367, 1367,
   840, 200, 200, 682, 1367, 683, 200, 841, 200, 200, 200, 842, 200, 843, 1367, 200, 200, 844, 200, 200,
   684, 685, 686, 200, 1367, 200, 200, 687, 200, 200, 682, 200, 683, 200, 841, 200, 200, 200, 842, 200,
   843, 200, 200, 200, 844, 1367, 200, 684, 1367, 686, 200, 689, 200, 200, 687, 200, 200, 1367, 200, 200,
   1367, 845, 200, 690, 846, 200, 200, 200, 200, 847, 688, 200, 200, 1367, 200, 200, 1367, 200, 689, 691,
   850, 1367, 200, 1367, 200, 1367, 200, 200, 845, 848, 690, 846, 200, 851, 200, 852, 847, 688, 200, 200,
   849, 200, 200, 200, 200, 200, 691, 850, 693, 692, 200, 200, 200, 853, 200, 200, 848, 200, 200, 200,
   851, 854, 852, 857, 694, 858, 1367, 849, 200, 200, 200, 695, 200, 200, 1367, 693, 692, 200, 200, 200,
   853, 1367, 200, 200, 200, 200, 200, 1367, 854, 200, 857, 694, 858, 696, 859, 200, 200, 1367, 695, 200,
   200, 855, 856, 697, 698, 200, 860, 200, 200, 200, 200, 200, 1367, 861, 200, 862, 200, 200, 863, 699,
   696, 859, 1367, 864, 200, 1367, 200, 200, 855, 856, 697, 698, 1367, 860, 200, 200, 200, 700, 200, 200,
   861, 200, 862, 200, 200, 863, 699, 865, 701, 200, 864, 200, 200, 1367, 200, 866, 1367, 200, 200, 200,
   1367, 200, 867, 868, 700, 869, 200, 200, 200, 1367, 200, 1367, 702, 1367, 865, 701, 200, 200, 1367, 200,
   703, 1367, 866, 200, 200, 200, 200, 200, 200, 867, 868, 1367, 869, 200, 200, 200, 705, 870, 200, 702,
   200, 200, 200, 200, 200, 200, 200, 703, 200, 704, 200, 706, 871, 872, 200, 1367, 200, 873, 200, 1367,
   200, 200, 874, 705, 870, 200, 875, 200, 200, 200, 200, 876, 200, 200, 1367, 200, 704, 200, 706, 871,
   872, 200, 707, 200, 873, 200, 200, 200, 200, 874, 200, 708, 1367, 875, 1367, 200, 200, 200, 876, 877,
   200, 200, 200, 711, 200, 200, 200, 710, 200, 707, 200, 200, 200, 200, 200, 200, 1367, 200, 708, 709,
   1367, 200, 200, 200, 200, 200, 877, 200, 200, 200, 711, 200, 200, 200, 710, 878, 879, 200, 200, 200,
   1367, 200, 200, 200, 880, 200, 709, 714, 200, 712, 200, 200, 200, 881, 200, 200, 200, 200, 200, 882,
   883, 713, 878, 879, 884, 715, 200, 200, 200, 200, 200, 880, 200, 200, 714, 1367, 712, 200, 200, 200,
   881, 200, 200, 200, 200, 885, 882, 883, 713, 200, 886, 884, 715, 200, 200, 716, 200, 200, 887, 888,
   200, 717, 200, 1367, 889, 200, 200, 200, 890, 718, 200, 200, 885, 891, 200, 1367, 200, 886, 719, 892,
   200, 200, 716, 893, 200, 887, 888, 1367, 717, 200, 200, 889, 200, 1367, 200, 890, 718, 200, 200, 1367,
   891, 200, 720, 721, 200, 719, 892, 200, 200, 200, 893, 1367, 894, 200, 200, 200, 895, 200, 1367, 896,
   200, 1367, 1367, 897, 1367, 200, 200, 1367, 200, 720, 721, 200, 1367, 200, 1367, 722, 200, 1367, 200, 894,
   200, 200, 200, 895, 200, 723, 896, 200, 724, 200, 897, 200, 200, 200, 200, 200, 200, 998, 1367, 200,
   200, 200, 722, 200, 200, 200, 1367, 999, 1367, 200, 1367, 200, 723, 1000, 725, 724, 200, 1001, 200, 200,
   1367, 200, 1002, 200, 998, 200, 200, 1003, 200, 200, 200, 200, 1367, 200, 999, 200, 200, 200, 726, 727,
   1000, 725, 1367, 200, 1001, 200, 200, 200, 1367, 1002, 1367, 200, 200, 200, 1003, 1004, 200, 728, 1367, 729,
   200, 1005, 200, 200, 200, 726, 727, 200, 1367, 200, 200, 730, 200, 731, 200, 200, 1006, 200, 200, 200,
   200, 200, 1004, 200, 728, 732, 729, 1007, 1005, 200, 200, 200, 1367, 200, 200, 733, 200, 200, 730, 1367,
   731, 200, 200, 1006, 200, 200, 200, 200, 200, 1008, 200, 1009, 732, 734, 1007, 1010, 200, 200, 200, 200,
   200, 735, 733, 200, 200, 200, 200, 1367, 200, 1011, 200, 200, 200, 1367, 200, 200, 1008, 1367, 1009, 1012,
   734, 737, 1010, 1367, 200, 200, 200, 200, 735, 200, 200, 200, 200, 200, 200, 736, 1011, 200, 200, 200,
   200, 200, 200, 200, 738, 742, 1012, 200, 737, 1013, 200, 1367, 200, 200, 200, 1367, 200, 1014, 200, 1015,
   200, 200, 736, 200, 739, 200, 200, 200, 200, 200, 200, 738, 742, 1016, 200, 200, 1013, 200, 200, 200,
   200, 743, 200, 200, 1014, 200, 1015, 200, 200, 200, 200, 739, 200, 745, 1367, 1017, 200, 1367, 200, 200,
   1016, 1018, 200, 1367, 1019, 200, 200, 1367, 743, 200, 200, 1020, 200, 740, 200, 200, 200, 200, 200, 1367,
   745, 200, 1017, 741, 200, 200, 200, 200, 1018, 1021, 744, 1019, 1367, 1022, 200, 1367, 1367, 200, 1020, 200,
   740, 200, 200, 200, 200, 200, 200, 1023, 200, 200, 741, 200, 200, 1024, 200, 746, 1021, 744, 1025, 200,
   1022, 200, 200, 747, 200, 1026, 200, 200, 1367, 200, 200, 200, 1027, 200, 1023, 1367, 200, 200, 1028, 200,
   1024, 748, 746, 200, 1367, 1025, 200, 200, 200, 200, 747, 1029, 1026, 200, 200, 200, 1367, 200, 200, 1027,
   1367, 749, 200, 1030, 200, 1028, 1367, 200, 748, 200, 200, 200, 1031, 751, 200, 200, 750, 200, 1029, 1367,
   200, 200, 200, 200, 200, 1367, 1032, 752, 749, 200, 1030, 200, 1033, 200, 200, 1367, 200, 200, 200, 1031,
   751, 1367, 200, 750, 200, 1034, 200, 200, 200, 200, 200, 756, 200, 1032, 752, 753, 200, 1367, 200, 1033,
   200, 200, 200, 1367, 200, 1037, 1038, 1367, 761, 200, 200, 1367, 1034, 200, 200, 200, 200, 1367, 756, 200,
   200, 1039, 753, 200, 200, 759, 200, 1367, 200, 200, 754, 200, 1037, 1038, 200, 761, 200, 200, 200, 1040,
   1367, 1041, 200, 1035, 200, 1042, 1036, 200, 1039, 755, 1043, 200, 759, 200, 200, 1367, 1044, 754, 200, 1045,
   1046, 200, 760, 200, 1367, 200, 1040, 200, 1041, 200, 1035, 200, 1042, 1036, 200, 1047, 755, 1043, 1048, 200,
   762, 200, 757, 1044, 200, 1049, 1045, 1046, 1367, 760, 200, 200, 1367, 200, 200, 758, 200, 1050, 200, 1051,
   200, 200, 1047, 200, 1367, 1048, 200, 762, 1367, 757, 1052, 200, 1049, 1053, 1367, 763, 1367, 200, 200, 200,
   200, 1367, 758, 200, 1050, 200, 1051, 200, 200, 200, 200, 200, 200, 1054, 765, 200, 1367, 1052, 200, 200,
   1053, 200, 763, 764, 1367, 766, 200, 200, 200, 1367, 200, 200, 200, 1055, 1367, 200, 200, 200, 200, 200,
   1054, 765, 200, 768, 1367, 200, 200, 200, 200, 200, 764, 200, 766, 200, 200, 200, 767, 1056, 200, 200,
   1055, 200, 200, 200, 200, 770, 200, 200, 1057, 200, 768, 200, 769, 1058, 200, 200, 200, 200, 200, 774,
   200, 200, 200, 767, 1056, 200, 200, 200, 200, 200, 200, 200, 770, 200, 200, 1057, 200, 200, 200, 769,
   1058, 200, 200, 1059, 200, 1060, 774, 200, 200, 200, 771, 200, 200, 200, 200, 200, 200, 200, 200, 1061,
   200, 200, 1062, 1063, 200, 1064, 200, 773, 200, 772, 1059, 200, 1060, 200, 200, 200, 200, 771, 200, 1065,
   200, 775, 200, 200, 200, 200, 1061, 200, 200, 1062, 1063, 1367, 1064, 200, 773, 1367, 772, 200, 200, 200,
   200, 1066, 200, 200, 200, 776, 1065, 200, 775, 200, 1067, 777, 200, 200, 1068, 200, 1069, 200, 200, 778,
   1070, 1071, 200, 200, 200, 1148, 200, 200, 1066, 1367, 1367, 200, 776, 1367, 1367, 1367, 200, 1067, 777, 1367,
   200, 1068, 200, 1069, 200, 200, 778, 1070, 1071, 200, 200, 200, 1148, 200, 200, 200, 781, 780, 200, 779,
   200, 200, 200, 200, 1149, 200, 200, 200, 1367, 1150, 1367, 200, 1151, 1152, 1153, 1367, 200, 1367, 200, 1154,
   200, 200, 200, 781, 780, 200, 779, 200, 200, 200, 200, 1149, 200, 200, 200, 200, 1150, 782, 200, 1151,
   1152, 1153, 200, 200, 783, 200, 1154, 200, 200, 200, 1367, 200, 1155, 784, 1367, 785, 1156, 1157, 200, 1158,
   1367, 1159, 200, 200, 782, 200, 1160, 1161, 1367, 200, 1367, 783, 200, 1367, 200, 1162, 200, 200, 200, 1155,
   784, 200, 785, 1156, 1157, 200, 1158, 786, 1159, 787, 200, 200, 200, 1160, 1161, 200, 1367, 200, 200, 789,
   790, 788, 1162, 200, 200, 200, 1367, 200, 200, 1163, 200, 200, 1367, 200, 786, 1367, 787, 1367, 200, 1367,
   1367, 1367, 200, 200, 200, 200, 789, 790, 788, 1367, 200, 1164, 200, 792, 200, 1165, 1163, 200, 200, 200,
   200, 200, 200, 1166, 200, 200, 200, 200, 791, 200, 200, 200, 200, 1367, 200, 1367, 793, 200, 1164, 1167,
   792, 1367, 1165, 1168, 1367, 1367, 200, 1367, 200, 200, 1166, 200, 200, 200, 200, 791, 200, 1169, 200, 200,
   200, 200, 200, 793, 200, 1170, 1167, 200, 794, 200, 1168, 795, 200, 1171, 797, 796, 200, 1367, 200, 1367,
   200, 200, 1172, 1367, 1169, 200, 1367, 200, 1367, 200, 200, 1173, 1170, 1367, 200, 794, 200, 1367, 795, 200,
   1171, 797, 796, 200, 200, 200, 200, 200, 200, 1172, 798, 200, 200, 200, 1174, 200, 200, 200, 1173, 899,
   200, 1367, 200, 1175, 200, 200, 1367, 1367, 900, 200, 1367, 200, 1176, 200, 200, 1367, 1367, 798, 200, 1367,
   200, 1174, 200, 200, 200, 1367, 899, 200, 200, 200, 1175, 200, 200, 200, 200, 900, 200, 200, 1177, 1176,
   200, 200, 904, 200, 901, 1178, 200, 200, 1179, 1180, 200, 200, 200, 902, 1181, 200, 200, 1367, 905, 903,
   200, 200, 200, 1367, 200, 1177, 200, 200, 200, 904, 200, 901, 1178, 200, 200, 1179, 1180, 200, 200, 200,
   902, 1181, 1182, 200, 907, 905, 903, 1367, 200, 200, 200, 1367, 906, 200, 200, 200, 200, 200, 1183, 1367,
   200, 1367, 200, 1367, 200, 200, 200, 1184, 1185, 1182, 1186, 907, 1187, 1367, 908, 200, 200, 200, 200, 906,
   1188, 200, 200, 200, 200, 1183, 200, 200, 200, 200, 200, 200, 1189, 200, 1184, 1185, 200, 1186, 200, 1187,
   200, 908, 1190, 200, 200, 200, 200, 1188, 909, 200, 200, 1367, 200, 200, 1191, 200, 200, 200, 1192, 1189,
   200, 1367, 200, 200, 1240, 200, 200, 200, 1242, 1190, 200, 200, 200, 200, 910, 909, 200, 200, 200, 200,
   1243, 1191, 911, 200, 1244, 1192, 200, 200, 200, 200, 1367, 1240, 200, 200, 1367, 1242, 200, 200, 200, 200,
   1367, 910, 200, 200, 200, 200, 200, 1243, 200, 911, 200, 1244, 200, 200, 200, 200, 200, 912, 1245, 200,
   200, 913, 200, 200, 200, 200, 200, 914, 1246, 200, 915, 200, 200, 200, 200, 200, 1367, 200, 1367, 200,
   200, 200, 200, 200, 912, 1245, 200, 200, 913, 200, 200, 200, 200, 200, 914, 1246, 200, 915, 1367, 200,
   200, 200, 200, 917, 1367, 200, 200, 200, 200, 200, 200, 916, 924, 200, 1247, 200, 200, 200, 200, 200,
   1367, 1248, 1367, 200, 200, 918, 200, 200, 200, 200, 917, 200, 200, 200, 1249, 200, 200, 200, 916, 924,
   1367, 1247, 200, 200, 1250, 200, 1251, 200, 1248, 200, 1252, 200, 918, 200, 200, 200, 919, 1253, 200, 200,
   200, 1249, 200, 200, 1254, 1367, 1255, 200, 920, 1256, 1367, 1250, 200, 1251, 200, 1367, 200, 1252, 1367, 921,
   1367, 200, 1257, 919, 1253, 1258, 200, 200, 1259, 200, 200, 1254, 200, 1255, 200, 920, 1256, 200, 200, 200,
   200, 1367, 200, 1260, 922, 200, 921, 923, 1261, 1257, 200, 1262, 1258, 1367, 1367, 1259, 200, 200, 200, 200,
   1367, 1288, 1290, 200, 200, 200, 1291, 200, 200, 200, 1260, 922, 200, 1367, 923, 1261, 1292, 200, 1262, 925,
   200, 200, 200, 200, 1293, 200, 200, 200, 1288, 1290, 200, 200, 200, 1291, 1294, 200, 1241, 1241, 200, 1367,
   200, 1295, 1296, 1292, 1367, 200, 925, 200, 200, 200, 200, 1293, 1297, 200, 200, 1367, 926, 1298, 200, 200,
   1299, 1294, 1300, 1367, 200, 200, 200, 200, 1295, 1296, 1317, 200, 200, 1318, 1289, 1319, 200, 200, 200, 1297,
   200, 1367, 927, 926, 1298, 200, 1367, 1299, 1367, 1300, 200, 200, 200, 200, 200, 1367, 928, 1317, 200, 200,
   1318, 1289, 1319, 200, 200, 200, 200, 200, 200, 927, 1320, 1367, 200, 200, 1321, 929, 1367, 200, 200, 200,
   200, 200, 200, 928, 1367, 931, 200, 200, 930, 1367, 1324, 200, 200, 200, 1367, 200, 200, 1320, 200, 1367,
   200, 1321, 929, 200, 1331, 200, 933, 200, 200, 200, 200, 932, 931, 1367, 200, 930, 200, 1324, 1332, 200,
   1316, 1316, 200, 200, 200, 200, 200, 1367, 1367, 200, 200, 1331, 200, 933, 200, 200, 200, 200, 932, 1367,
   200, 1335, 200, 200, 200, 1332, 1338, 1367, 1340, 200, 200, 200, 200, 200, 200, 934, 200, 1367, 200, 200,
   200, 200, 1330, 200, 935, 1367, 200, 200, 1335, 200, 936, 200, 1342, 1338, 200, 1340, 200, 200, 1344, 200,
   937, 200, 934, 1367, 200, 200, 200, 200, 200, 1330, 1346, 935, 200, 200, 200, 1367, 200, 936, 1348, 1342,
   1350, 200, 200, 200, 200, 1344, 200, 937, 1352, 1367, 200, 200, 200, 200, 938, 200, 200, 1346, 200, 200,
   1367, 200, 200, 200, 1354, 1348, 200, 1350, 200, 200, 1367, 200, 1356, 200, 1367, 1352, 200, 200, 200, 200,
   200, 938, 1358, 200, 200, 200, 200, 939, 200, 200, 200, 1354, 940, 200, 200, 200, 200, 200, 1367, 1356,
   1323, 1316, 200, 200, 200, 200, 1367, 200, 1360, 1358, 1367, 200, 942, 200, 939, 200, 200, 200, 200, 940,
   200, 200, 200, 200, 200, 200, 200, 1367, 200, 200, 200, 200, 200, 941, 200, 1360, 200, 1367, 200, 942,
   1367, 200, 1334, 200, 1367, 200, 944, 200, 1367, 200, 1367, 1367, 200, 200, 200, 200, 1367, 200, 200, 200,
   941, 200, 1367, 200, 200, 200, 1367, 943, 200, 1334, 200, 1367, 200, 944, 200, 1367, 945, 200, 1367, 1367,
   1367, 200, 200, 1265, 1241, 200, 200, 1367, 200, 1367, 1367, 200, 946, 200, 943, 1367, 1367, 200, 200, 200,
   200, 200, 200, 945, 200, 1367, 1367, 200, 1367, 200, 1367, 1367, 200, 200, 1367, 200, 1367, 1367, 1367, 946,
   200, 1303, 1367, 1367, 1367, 200, 947, 200, 949, 200, 200, 200, 1367, 200, 200, 200, 1367, 948, 200, 200,
   200, 1367, 200, 200, 200, 1367, 1367, 1367, 1303, 200, 1367, 1367, 1367, 947, 200, 949, 1367, 200, 200, 1367,
   200, 200, 200, 200, 948, 200, 1367, 200, 200, 200, 200, 200, 200, 200, 200, 200, 200, 200, 1367, 200,
   1367, 200, 200, 950, 200, 1367, 1367, 200, 200, 1367, 200, 200, 1367, 200, 1367, 200, 1367, 1367, 200, 200,
   200, 200, 200, 200, 200, 951, 200, 200, 1367, 200, 950, 200, 200, 1367, 200, 1367, 1367, 200, 200, 1367,
   200, 1367, 1367, 952, 1367, 200, 1367, 200, 1367, 1367, 200, 200, 951, 200, 200, 200, 953, 1367, 1367, 200,
   200, 200, 1367, 200, 200, 200, 200, 200, 1367, 1367, 952, 200, 954, 955, 200, 956, 200, 200, 200, 200,
   200, 200, 200, 953, 1367, 1367, 200, 200, 200, 1367, 200, 200, 200, 200, 200, 1367, 1367, 1367, 200, 954,
   955, 1367, 956, 200, 200, 200, 200, 200, 200, 1367, 200, 957, 200, 200, 958, 200, 1367, 200, 200, 200,
   200, 959, 1367, 200, 200, 200, 975, 200, 1367, 1367, 200, 200, 200, 200, 200, 200, 200, 200, 957, 200,
   1367, 958, 200, 200, 200, 960, 200, 200, 959, 200, 200, 200, 200, 975, 200, 200, 1367, 200, 200, 1367,
   200, 1367, 200, 200, 200, 200, 1367, 1367, 200, 1367, 200, 1367, 960, 1367, 200, 1367, 200, 961, 978, 1367,
   200, 1367, 200, 200, 200, 200, 1367, 200, 1367, 1367, 200, 200, 200, 200, 1367, 200, 962, 1367, 200, 1367,
   1367, 200, 200, 200, 961, 978, 1367, 200, 200, 1367, 200, 200, 200, 1367, 200, 1367, 1367, 200, 200, 1367,
   200, 1367, 1367, 962, 200, 200, 1367, 200, 200, 200, 200, 964, 963, 1367, 200, 200, 200, 200, 1367, 1367,
   200, 1367, 1367, 1367, 200, 200, 200, 200, 1367, 1367, 1367, 200, 1367, 1367, 200, 200, 200, 1367, 964, 963,
   1367, 200, 965, 200, 200, 1367, 200, 200, 1367, 1367, 1367, 200, 200, 200, 200, 1367, 966, 967, 1367, 1367,
   200, 200, 200, 200, 200, 200, 1367, 1367, 1367, 965, 200, 200, 1367, 200, 1367, 1367, 1367, 1367, 1367, 200,
   200, 200, 1367, 966, 967, 1367, 968, 200, 200, 200, 200, 200, 200, 1367, 1367, 200, 200, 200, 200, 200,
   1367, 1367, 1367, 1367, 1367, 200, 200, 200, 200, 1367, 1367, 1367, 1367, 968, 200, 200, 1367, 200, 200, 1367,
   1367, 1367, 200, 200, 200, 1367, 200, 969, 1367, 1367, 1367, 1367, 200, 200, 200, 1367, 200, 1367, 1367, 200,
   200, 200, 200, 200, 970, 200, 200, 1367, 1367, 200, 1367, 200, 971, 1367, 969, 1367, 200, 1367, 1367, 200,
   1367, 200, 1367, 200, 1367, 200, 200, 200, 200, 200, 200, 970, 200, 200, 973, 200, 200, 200, 200, 971,
   972, 200, 1367, 200, 1367, 200, 200, 200, 200, 1367, 200, 1367, 200, 1367, 200, 200, 200, 200, 974, 200,
   200, 973, 200, 1367, 200, 200, 1367, 972, 200, 1367, 200, 1367, 200, 1367, 200, 200, 977, 200, 1367, 976,
   200, 200, 1367, 1367, 200, 974, 200, 200, 200, 200, 200, 1367, 1367, 200, 200, 200, 200, 200, 200, 200,
   200, 1367, 1367, 977, 200, 1367, 976, 200, 979, 200, 1367, 1367, 200, 200, 200, 200, 200, 200, 200, 1367,
   200, 200, 200, 200, 1367, 200, 200, 200, 200, 1367, 200, 200, 1367, 981, 980, 979, 200, 200, 200, 200,
   200, 200, 200, 200, 1367, 200, 1367, 1367, 982, 1367, 200, 1367, 200, 200, 1367, 200, 200, 200, 200, 1367,
   981, 980, 200, 1367, 200, 200, 1367, 200, 1367, 200, 200, 1367, 200, 1367, 200, 982, 1367, 200, 200, 200,
   200, 1367, 1367, 200, 200, 200, 200, 1367, 200, 200, 200, 1367, 200, 983, 200, 1367, 1367, 984, 200, 200,
   1367, 200, 200, 1367, 1367, 200, 1367, 1367, 1367, 1367, 1367, 200, 1367, 200, 1367, 200, 200, 200, 200, 200,
   983, 200, 1367, 200, 984, 200, 985, 1367, 200, 200, 1367, 1367, 200, 1367, 200, 200, 992, 200, 1367, 200,
   200, 986, 200, 200, 200, 200, 200, 200, 1367, 1367, 200, 1367, 1367, 985, 1367, 200, 200, 1367, 200, 200,
   987, 200, 200, 992, 200, 200, 200, 200, 986, 200, 200, 200, 1367, 200, 200, 1367, 1367, 200, 1367, 200,
   989, 1367, 1367, 200, 200, 200, 988, 987, 200, 200, 200, 200, 200, 200, 1367, 200, 990, 200, 200, 1367,
   200, 1367, 1367, 200, 200, 1367, 200, 989, 1367, 1367, 1367, 200, 1367, 988, 991, 200, 200, 200, 200, 200,
   200, 200, 200, 990, 200, 200, 200, 200, 200, 200, 200, 200, 993, 200, 200, 1367, 1367, 1367, 1367, 200,
   1367, 991, 1367, 1367, 200, 1367, 200, 1367, 200, 200, 1367, 200, 1367, 200, 1367, 200, 200, 1367, 200, 993,
   200, 200, 1367, 200, 200, 995, 200, 200, 200, 200, 1367, 200, 1367, 200, 200, 200, 200, 200, 1367, 994,
   1367, 200, 1367, 200, 200, 200, 200, 200, 200, 1367, 200, 200, 995, 996, 200, 200, 200, 200, 200, 1367,
   200, 200, 200, 1367, 200, 1367, 994, 1367, 200, 1367, 200, 200, 200, 200, 200, 200, 200, 1367, 200, 200,
   996, 200, 1367, 200, 200, 200, 200, 200, 200, 200, 200, 200, 200, 1367, 200, 1367, 1367, 200, 1367, 200,
   1367, 1073, 200, 200, 1367, 200, 200, 1367, 200, 1367, 200, 1367, 1367, 200, 200, 200, 200, 200, 200, 200,
   1367, 200, 1367, 1074, 200, 1367, 200, 200, 1073, 200, 1367, 200, 1075, 200, 1367, 200, 200, 1367, 1367, 1367,
   1367, 200, 200, 200, 1367, 1367, 1367, 1367, 1367, 1367, 1074, 200, 200, 1367, 200, 1367, 1367, 200, 200, 1075,
   200, 200, 200, 200, 1367, 1367, 1367, 200, 200, 200, 200, 1367, 1076, 1367, 1367, 1078, 200, 200, 200, 200,
   200, 1077, 1367, 1367, 200, 200, 200, 1367, 200, 200, 1367, 1367, 1367, 1367, 200, 200, 200, 1367, 1367, 1076,
   1367, 1367, 1078, 200, 200, 200, 1367, 200, 1077, 1079, 1367, 200, 200, 200, 1367, 200, 200, 200, 200, 1080,
   200, 200, 200, 200, 200, 200, 1081, 1367, 1367, 200, 200, 200, 200, 1367, 1367, 1367, 1079, 1367, 200, 200,
   1367, 1367, 200, 200, 200, 200, 1080, 200, 200, 1082, 1367, 200, 200, 1081, 1367, 1367, 200, 200, 200, 200,
   1367, 1083, 200, 200, 1084, 200, 200, 200, 1367, 200, 200, 200, 1367, 200, 200, 200, 1082, 1367, 1367, 1085,
   1367, 200, 1367, 200, 1367, 200, 200, 1367, 1083, 200, 200, 1084, 200, 200, 200, 200, 200, 200, 200, 1367,
   200, 200, 200, 1086, 1367, 1367, 1085, 1087, 200, 1367, 200, 200, 200, 200, 1367, 200, 1088, 1367, 200, 1367,
   200, 200, 200, 200, 200, 1367, 1367, 1367, 200, 1089, 1086, 200, 1367, 200, 1087, 1367, 1367, 200, 200, 200,
   200, 200, 200, 1088, 1367, 200, 1367, 200, 200, 200, 200, 1367, 1367, 1367, 1367, 200, 1089, 200, 200, 200,
   200, 1367, 1367, 1090, 200, 1367, 200, 200, 200, 200, 1367, 200, 1367, 200, 200, 1092, 200, 200, 1367, 200,
   200, 1367, 1091, 1367, 200, 200, 200, 200, 1367, 1367, 1090, 1093, 1367, 200, 200, 200, 200, 1094, 200, 1367,
   200, 200, 1092, 200, 200, 1367, 200, 200, 1367, 1091, 1367, 200, 200, 200, 200, 1095, 1367, 200, 1093, 200,
   200, 200, 200, 1367, 1094, 200, 1367, 200, 200, 1367, 200, 1367, 1096, 1367, 1367, 200, 1367, 200, 200, 1367,
   200, 200, 1095, 1367, 200, 200, 200, 1367, 200, 1367, 1367, 200, 200, 200, 200, 200, 1097, 1367, 1367, 1096,
   1098, 200, 200, 1367, 200, 200, 200, 1100, 200, 200, 1099, 200, 200, 200, 1367, 200, 200, 1367, 200, 200,
   200, 200, 200, 1097, 1367, 1367, 200, 1098, 200, 200, 1367, 200, 200, 200, 1100, 200, 200, 1099, 200, 200,
   200, 1367, 200, 200, 1367, 200, 200, 200, 200, 1367, 200, 200, 1102, 200, 200, 200, 200, 200, 200, 1367,
   200, 1104, 200, 200, 1367, 1101, 200, 200, 200, 1367, 200, 1367, 200, 200, 200, 1367, 200, 200, 200, 1102,
   200, 200, 200, 1367, 200, 1367, 200, 200, 1104, 1367, 200, 1103, 1101, 1367, 200, 200, 200, 200, 1367, 200,
   200, 200, 200, 200, 200, 1106, 1105, 200, 1367, 200, 200, 200, 200, 200, 200, 1367, 1367, 200, 1103, 1367,
   1367, 1367, 200, 200, 1367, 1367, 200, 1367, 200, 200, 1367, 200, 1106, 1105, 1367, 1367, 200, 200, 200, 200,
   200, 200, 200, 200, 200, 200, 200, 200, 200, 200, 200, 1107, 200, 200, 200, 200, 200, 1367, 200, 1367,
   1367, 200, 1367, 1367, 1367, 1367, 200, 200, 1367, 200, 200, 1367, 200, 200, 200, 200, 1367, 200, 1107, 200,
   200, 200, 200, 200, 200, 200, 200, 1367, 200, 1367, 1109, 200, 1108, 200, 200, 200, 200, 200, 1367, 1367,
   200, 1367, 1110, 1367, 1367, 1111, 1367, 200, 1367, 1367, 200, 200, 1367, 200, 1367, 1367, 1367, 1109, 200, 1108,
   1367, 200, 200, 200, 200, 1367, 1112, 200, 200, 1110, 1367, 1367, 1111, 200, 200, 1367, 1367, 200, 200, 200,
   200, 200, 200, 1367, 1367, 1367, 200, 200, 1367, 1367, 1367, 200, 200, 1112, 1367, 200, 1367, 1367, 1367, 1367,
   200, 1367, 1113, 1367, 1367, 200, 200, 200, 200, 200, 200, 1367, 200, 200, 200, 1367, 1367, 200, 200, 200,
   1367, 200, 200, 200, 200, 1367, 200, 1367, 200, 1113, 1367, 200, 1367, 200, 1367, 1367, 200, 200, 1367, 200,
   1367, 1367, 1114, 1367, 200, 1367, 200, 1367, 200, 200, 200, 200, 200, 200, 200, 200, 200, 1116, 200, 1367,
   200, 1115, 200, 200, 1367, 1367, 200, 1367, 200, 1114, 200, 1367, 1367, 200, 1367, 200, 1367, 1367, 1367, 200,
   200, 200, 1367, 200, 1116, 1367, 1367, 1367, 1115, 200, 1367, 1367, 200, 200, 200, 200, 1367, 200, 1367, 200,
   1117, 200, 200, 200, 200, 1367, 1118, 200, 200, 1119, 200, 1367, 200, 200, 1367, 1367, 1367, 200, 1367, 200,
   1367, 200, 200, 1367, 1367, 1367, 200, 1117, 200, 1367, 200, 200, 1367, 1118, 1367, 200, 1119, 200, 1367, 200,
   200, 200, 1367, 200, 200, 200, 1120, 200, 200, 200, 200, 1367, 200, 200, 1367, 1367, 200, 200, 1367, 1367,
   1367, 200, 1367, 1367, 1367, 200, 200, 1367, 200, 1367, 200, 200, 200, 1120, 200, 200, 1121, 200, 1367, 200,
   200, 200, 1367, 200, 200, 1122, 200, 200, 200, 1367, 200, 200, 200, 200, 1367, 1367, 200, 200, 200, 1367,
   1123, 1367, 1367, 1121, 1367, 1367, 200, 200, 200, 1367, 1367, 1367, 1122, 200, 200, 200, 200, 200, 200, 200,
   200, 1367, 1367, 200, 200, 200, 200, 1123, 1124, 1367, 1367, 1367, 1367, 200, 200, 200, 200, 1367, 1367, 1367,
   1125, 1126, 200, 200, 200, 200, 200, 200, 1367, 1367, 200, 200, 200, 200, 200, 1124, 1367, 1367, 1127, 1367,
   200, 200, 200, 200, 200, 1128, 200, 1125, 1126, 200, 200, 200, 200, 200, 200, 1367, 200, 200, 200, 200,
   1367, 200, 1367, 1367, 1367, 1127, 200, 200, 200, 200, 1129, 200, 1128, 200, 200, 200, 200, 200, 200, 200,
   200, 200, 1367, 200, 200, 200, 200, 1130, 200, 1367, 1131, 1367, 200, 200, 200, 200, 200, 1129, 200, 1367,
   200, 200, 200, 200, 200, 200, 200, 1132, 200, 1367, 200, 200, 200, 200, 1130, 200, 1367, 1131, 1367, 200,
   200, 200, 200, 200, 1367, 200, 1367, 200, 1133, 200, 200, 200, 1367, 200, 1132, 200, 1367, 200, 1134, 200,
   200, 200, 200, 200, 1367, 1367, 200, 200, 1135, 200, 200, 1367, 200, 200, 1367, 1133, 200, 1367, 1367, 1367,
   200, 1367, 200, 1367, 1367, 1134, 200, 1367, 200, 200, 200, 1367, 1367, 200, 1367, 1135, 200, 1367, 1367, 200,
   200, 200, 1367, 200, 200, 1367, 200, 1136, 200, 200, 1367, 200, 1137, 200, 1138, 1367, 200, 200, 1367, 1140,
   1367, 1367, 1367, 1367, 200, 200, 1367, 200, 200, 200, 200, 200, 200, 200, 1136, 200, 1367, 200, 200, 1137,
   200, 1138, 1139, 200, 200, 1367, 1140, 1367, 1367, 1367, 1367, 200, 200, 200, 200, 200, 200, 1367, 1367, 200,
   200, 200, 1367, 200, 200, 200, 1141, 1367, 200, 1139, 200, 1143, 1367, 200, 1367, 200, 200, 1367, 1142, 200,
   200, 200, 200, 200, 1367, 1367, 200, 200, 200, 200, 200, 200, 200, 1141, 1367, 200, 1367, 200, 1143, 200,
   200, 1367, 200, 200, 1367, 1142, 200, 200, 200, 1367, 200, 200, 200, 200, 200, 1367, 200, 200, 200, 1144,
   1367, 1367, 1145, 1367, 200, 1367, 200, 200, 1367, 1367, 1367, 1367, 1367, 200, 200, 200, 1367, 1367, 200, 200,
   200, 200, 1367, 1367, 200, 200, 1144, 1367, 1146, 1145, 1367, 200, 1367, 1367, 200, 1367, 200, 1367, 200, 200,
   200, 200, 200, 200, 1367, 1367, 200, 200, 200, 1367, 1367, 200, 200, 1367, 1367, 1146, 1367, 200, 1367, 200,
   1367, 1367, 1367, 200, 200, 200, 200, 1194, 200, 200, 200, 200, 200, 200, 1367, 200, 200, 200, 200, 1367,
   1367, 200, 200, 1195, 200, 1367, 200, 200, 200, 1367, 1367, 200, 200, 200, 1194, 200, 200, 200, 200, 200,
   1367, 1367, 200, 200, 200, 1367, 1367, 200, 200, 200, 1195, 200, 1367, 1196, 200, 200, 1367, 1197, 200, 200,
   200, 200, 200, 200, 200, 1367, 200, 200, 1367, 200, 200, 1367, 1367, 1367, 200, 1367, 200, 200, 200, 1367,
   1196, 1198, 1367, 1367, 1197, 200, 200, 1367, 200, 200, 200, 200, 1367, 200, 200, 1367, 1199, 200, 200, 1367,
   200, 200, 1367, 200, 200, 200, 1367, 1200, 1198, 200, 200, 1367, 1367, 200, 200, 1367, 200, 1367, 200, 200,
   1367, 1367, 1367, 1199, 1367, 200, 1367, 200, 200, 1367, 1367, 200, 200, 200, 1200, 1367, 200, 200, 200, 1367,
   200, 200, 200, 200, 1367, 1367, 200, 200, 1201, 200, 1202, 200, 200, 1367, 1367, 1367, 200, 1367, 200, 1367,
   200, 200, 1367, 1367, 1367, 200, 1367, 200, 1367, 200, 200, 1203, 1367, 1367, 200, 1201, 200, 1202, 200, 200,
   200, 1367, 200, 200, 1204, 1367, 200, 200, 200, 1367, 1367, 200, 200, 200, 1367, 200, 200, 1367, 1203, 1367,
   200, 1205, 1367, 1367, 1367, 200, 1367, 200, 1367, 200, 1367, 1204, 1367, 200, 200, 1367, 1367, 1367, 200, 200,
   200, 1367, 200, 200, 200, 1206, 200, 200, 1205, 1367, 1367, 200, 200, 1367, 1367, 200, 200, 200, 200, 1367,
   200, 1367, 200, 1367, 1367, 200, 1367, 200, 1367, 1367, 200, 200, 1206, 200, 1367, 1367, 1367, 1207, 200, 1367,
   1367, 1367, 200, 200, 200, 200, 200, 200, 200, 200, 1367, 1367, 200, 200, 200, 1367, 1367, 200, 200, 200,
   200, 200, 1208, 1367, 1207, 1367, 200, 200, 1367, 1367, 1367, 200, 200, 200, 1367, 200, 1367, 1367, 1367, 1367,
   200, 1367, 1367, 1367, 1367, 200, 200, 200, 200, 1208, 200, 1367, 200, 200, 200, 1367, 1209, 200, 200, 200,
   200, 200, 200, 200, 1367, 200, 200, 1367, 200, 200, 1367, 1367, 1367, 200, 1367, 200, 200, 200, 1367, 200,
   1367, 1367, 1367, 1209, 200, 200, 1367, 200, 200, 200, 200, 1367, 200, 200, 1367, 200, 200, 200, 1367, 1210,
   200, 200, 200, 200, 200, 1212, 200, 1367, 200, 200, 1367, 200, 200, 200, 1211, 200, 1367, 1213, 200, 1367,
   1367, 200, 200, 1367, 200, 1367, 1210, 200, 200, 1367, 1367, 200, 1212, 200, 1367, 200, 200, 1367, 200, 1367,
   200, 1211, 200, 1367, 1213, 200, 1367, 1367, 200, 200, 200, 200, 200, 200, 200, 1367, 1367, 200, 200, 200,
   1367, 200, 200, 200, 1367, 1367, 200, 1367, 1367, 1367, 1367, 200, 1367, 1367, 1367, 1367, 1367, 200, 200, 200,
   200, 1367, 1367, 1367, 200, 200, 200, 1367, 200, 200, 200, 1367, 200, 200, 200, 200, 1367, 200, 200, 200,
   1367, 200, 200, 200, 200, 1367, 1367, 200, 200, 1367, 1367, 1367, 1367, 200, 1367, 1367, 1367, 1367, 1367, 200,
   1367, 200, 200, 1367, 200, 1367, 200, 1367, 200, 200, 200, 200, 1367, 1367, 200, 200, 200, 1215, 200, 1367,
   200, 200, 1214, 200, 1367, 1367, 1367, 200, 200, 1367, 1367, 200, 1216, 1367, 1367, 200, 200, 200, 1367, 1367,
   200, 200, 1367, 200, 1215, 200, 200, 1367, 200, 1214, 200, 200, 1367, 1367, 200, 200, 200, 1367, 200, 1216,
   1367, 200, 200, 200, 200, 200, 1367, 200, 200, 1367, 200, 200, 200, 200, 1367, 1367, 1367, 1217, 200, 1367,
   1367, 200, 200, 200, 200, 1367, 200, 1367, 200, 1367, 1367, 200, 200, 1218, 1367, 200, 200, 200, 200, 200,
   200, 1367, 1367, 1367, 1217, 200, 1367, 1367, 200, 200, 1367, 200, 200, 200, 200, 1219, 1367, 1367, 200, 200,
   1218, 1367, 200, 200, 200, 1367, 200, 200, 200, 1367, 1367, 1367, 200, 200, 1367, 1367, 1367, 1367, 200, 200,
   1367, 200, 1219, 1367, 1367, 200, 200, 200, 1367, 1367, 1367, 200, 200, 200, 200, 200, 200, 200, 1367, 1367,
   200, 200, 1220, 1367, 1367, 200, 200, 200, 1367, 1367, 1367, 1221, 200, 1367, 200, 1367, 200, 200, 1367, 200,
   1222, 200, 1367, 200, 200, 1367, 200, 200, 200, 1220, 200, 1223, 1225, 200, 200, 200, 200, 200, 1221, 1367,
   1367, 200, 200, 200, 200, 200, 1367, 1222, 1367, 200, 1367, 200, 1367, 200, 200, 200, 1367, 200, 1223, 1225,
   1367, 1367, 200, 200, 200, 1224, 1367, 1367, 200, 200, 1226, 1367, 200, 200, 1367, 200, 200, 1367, 200, 200,
   200, 200, 200, 1367, 1367, 200, 200, 1367, 1367, 1367, 1367, 200, 1224, 1367, 1227, 1367, 1367, 1226, 1367, 1367,
   200, 1367, 200, 200, 1367, 200, 200, 200, 200, 1367, 200, 1367, 200, 200, 1367, 200, 1367, 200, 200, 200,
   1367, 1227, 1367, 1367, 1228, 1367, 200, 1367, 200, 200, 200, 1367, 200, 1229, 1367, 1367, 1367, 200, 200, 1367,
   1367, 1367, 200, 1367, 200, 200, 200, 200, 1367, 1367, 1367, 1228, 200, 200, 1367, 200, 200, 200, 1367, 200,
   1229, 1230, 1367, 1367, 1367, 200, 200, 1367, 200, 1367, 200, 200, 200, 1367, 200, 200, 1367, 1367, 1367, 200,
   200, 1367, 1367, 1367, 200, 1367, 200, 1231, 1230, 200, 1367, 1367, 1367, 200, 200, 200, 1367, 200, 200, 200,
   1367, 200, 200, 200, 1232, 1367, 1367, 200, 200, 1367, 1367, 1367, 1367, 200, 1231, 200, 200, 200, 1367, 1367,
   1367, 200, 200, 1233, 1367, 1367, 200, 200, 200, 1367, 200, 1232, 1367, 1367, 200, 200, 200, 1367, 1367, 1367,
   200, 200, 200, 1367, 200, 1367, 200, 1367, 1234, 200, 1233, 1367, 1367, 1367, 200, 1367, 1367, 200, 200, 200,
   200, 200, 1367, 200, 200, 200, 1235, 1367, 200, 200, 200, 1367, 1367, 200, 1367, 1234, 1367, 1367, 1367, 1367,
   1236, 1367, 1367, 1367, 200, 200, 200, 200, 200, 1367, 200, 200, 200, 1235, 1367, 200, 200, 200, 1367, 200,
   200, 200, 200, 1367, 200, 1367, 200, 1236, 1367, 200, 1367, 200, 1367, 1367, 200, 200, 1367, 200, 200, 1367,
   200, 1367, 200, 1367, 1367, 200, 200, 200, 200, 200, 200, 200, 200, 200, 200, 1367, 200, 1367, 200, 200,
   1367, 200, 1367, 1367, 200, 200, 1367, 200, 200, 1367, 200, 1238, 200, 200, 1237, 200, 1367, 200, 200, 200,
   200, 200, 200, 200, 200, 1367, 200, 1367, 1367, 200, 1367, 200, 1367, 1367, 200, 200, 1367, 200, 1238, 1367,
   200, 1237, 200, 1367, 1367, 200, 200, 200, 200, 200, 200, 200, 200, 200, 200, 200, 200, 200, 200, 200,
   1367, 200, 200, 1367, 200, 1367, 1367, 200, 1264, 1367, 1367, 1367, 200, 200, 1367, 200, 1367, 1367, 200, 200,
   200, 200, 200, 200, 200, 200, 200, 200, 200, 200, 1367, 200, 200, 200, 200, 1264, 200, 1265, 1241, 200,
   1367, 1367, 200, 200, 1367, 200, 1367, 1266, 1367, 1367, 200, 200, 200, 1367, 200, 200, 1367, 200, 1367, 200,
   200, 1367, 200, 200, 1367, 1367, 200, 200, 1367, 200, 200, 1367, 200, 1267, 1266, 1367, 200, 200, 200, 200,
   200, 200, 200, 1367, 200, 1367, 200, 200, 1367, 200, 1367, 200, 1367, 200, 200, 200, 200, 200, 1367, 200,
   1267, 200, 1367, 200, 200, 1367, 1268, 200, 200, 200, 200, 200, 1367, 200, 200, 200, 200, 1367, 200, 200,
   1367, 1367, 200, 200, 200, 200, 200, 200, 200, 1271, 1269, 1367, 1367, 1268, 200, 200, 1367, 200, 200, 200,
   200, 1367, 200, 200, 200, 200, 200, 1270, 1367, 200, 200, 1367, 200, 200, 200, 200, 1271, 1269, 1367, 200,
   200, 200, 200, 200, 1367, 200, 200, 200, 200, 200, 200, 200, 200, 1367, 1270, 200, 200, 200, 1367, 200,
   200, 200, 200, 1367, 1367, 200, 200, 200, 1367, 1367, 200, 200, 200, 1367, 1367, 200, 200, 200, 200, 1367,
   200, 200, 200, 1367, 1367, 200, 200, 200, 200, 1273, 200, 200, 200, 1272, 1367, 1367, 200, 1367, 200, 1367,
   1367, 200, 200, 1367, 200, 200, 1367, 200, 200, 200, 1367, 1367, 200, 1367, 200, 1367, 1273, 200, 200, 1367,
   1272, 1367, 1367, 200, 1367, 200, 1367, 200, 200, 200, 1367, 200, 200, 200, 1367, 200, 200, 200, 1275, 1367,
   200, 200, 200, 200, 200, 200, 200, 200, 200, 1367, 1274, 200, 200, 1276, 200, 1367, 200, 1367, 200, 200,
   200, 1367, 200, 200, 200, 1275, 1367, 200, 1367, 200, 200, 200, 200, 200, 200, 200, 1367, 1274, 200, 200,
   1276, 1277, 200, 200, 200, 200, 200, 1367, 1367, 200, 200, 200, 1367, 200, 200, 200, 1367, 1367, 1367, 1367,
   200, 1367, 1367, 1278, 1367, 200, 200, 1367, 1277, 200, 1367, 200, 200, 200, 200, 1367, 200, 1367, 200, 200,
   200, 200, 200, 1367, 200, 1367, 200, 200, 200, 1367, 1278, 1367, 200, 200, 1279, 1367, 1367, 1367, 200, 200,
   1367, 200, 1367, 1367, 1280, 200, 200, 200, 1367, 1367, 1367, 200, 200, 200, 1367, 200, 200, 200, 200, 1367,
   200, 1279, 1367, 200, 1367, 200, 1367, 1367, 200, 1367, 1367, 1280, 200, 1367, 200, 200, 1367, 200, 1367, 200,
   1367, 1367, 200, 200, 200, 200, 200, 200, 200, 200, 200, 200, 1367, 200, 1281, 200, 200, 1367, 200, 1367,
   1367, 200, 200, 1367, 200, 200, 1367, 200, 1367, 200, 1367, 1282, 200, 200, 200, 200, 200, 200, 200, 1367,
   200, 1281, 1367, 200, 1367, 200, 1367, 1367, 200, 200, 1283, 200, 200, 1367, 200, 200, 200, 200, 1282, 200,
   1367, 200, 200, 1284, 200, 1285, 1367, 200, 1367, 200, 1367, 1367, 1367, 1367, 1367, 200, 200, 1283, 200, 1367,
   1367, 1367, 200, 200, 200, 200, 1367, 1286, 200, 200, 1284, 200, 1285, 1367, 200, 200, 200, 200, 1367, 200,
   200, 1367, 200, 1367, 200, 200, 1367, 200, 1367, 1367, 200, 1367, 200, 200, 1286, 200, 1367, 200, 200, 1367,
   200, 1367, 200, 200, 200, 200, 200, 200, 1367, 200, 1367, 200, 200, 200, 200, 200, 1367, 200, 1302, 200,
   200, 1367, 200, 200, 200, 200, 1367, 200, 1367, 200, 200, 200, 200, 200, 1304, 200, 200, 200, 1367, 200,
   200, 200, 200, 200, 1367, 1302, 200, 1367, 1367, 1367, 200, 200, 200, 200, 1367, 200, 200, 1367, 200, 200,
   200, 1304, 200, 1367, 200, 200, 200, 200, 200, 1305, 200, 200, 1367, 1367, 1367, 200, 1367, 200, 200, 1367,
   200, 1367, 200, 1367, 1367, 200, 200, 200, 1367, 200, 1367, 1367, 200, 200, 200, 200, 1305, 200, 200, 1367,
   1306, 1367, 200, 200, 200, 200, 1367, 1367, 1367, 1367, 1367, 200, 200, 200, 200, 200, 200, 1367, 1367, 1367,
   200, 200, 200, 1367, 200, 1367, 1367, 1306, 1367, 1367, 200, 200, 200, 200, 1367, 1367, 1367, 200, 200, 1367,
   200, 1367, 200, 200, 1309, 200, 1307, 1308, 200, 200, 1367, 200, 200, 200, 1367, 1310, 200, 200, 200, 200,
   200, 200, 1367, 1367, 200, 200, 1367, 1367, 1367, 1367, 200, 1309, 200, 1307, 1308, 200, 200, 200, 200, 200,
   200, 200, 1310, 200, 200, 200, 200, 200, 200, 200, 200, 1367, 200, 1367, 200, 200, 1367, 200, 1367, 200,
   200, 1367, 200, 200, 200, 200, 1367, 1367, 200, 200, 200, 1367, 200, 1367, 200, 1367, 200, 200, 1367, 1311,
   1367, 200, 200, 1367, 200, 1367, 200, 200, 1367, 200, 200, 200, 200, 200, 200, 1313, 200, 200, 200, 200,
   1312, 200, 1314, 200, 200, 1367, 1311, 200, 1367, 200, 1367, 200, 1367, 200, 200, 1367, 200, 1367, 200, 1367,
   200, 200, 1313, 200, 1367, 200, 200, 1312, 200, 1314, 200, 200, 1323, 1316, 200, 1325, 200, 1367, 200, 200,
   200, 200, 1367, 200, 200, 200, 1367, 200, 200, 1367, 200, 1367, 1367, 200, 200, 200, 1367, 200, 1367, 1367,
   1367, 200, 1325, 200, 200, 1367, 200, 200, 1367, 1367, 200, 200, 200, 1367, 200, 200, 1367, 200, 1367, 1367,
   200, 200, 200, 1367, 200, 200, 1367, 200, 200, 1367, 200, 200, 1326, 200, 200, 200, 200, 200, 200, 200,
   200, 200, 1367, 200, 200, 200, 1327, 1367, 200, 1367, 1367, 200, 200, 1367, 200, 1367, 1367, 1367, 1367, 1326,
   200, 1367, 200, 200, 200, 200, 200, 200, 200, 200, 200, 200, 200, 1327, 1367, 200, 200, 200, 200, 200,
   1367, 200, 200, 1367, 200, 1367, 200, 200, 1367, 200, 200, 200, 1328, 1367, 200, 200, 200, 200, 200, 200,
   200, 1367, 200, 200, 200, 200, 200, 200, 200, 200, 200, 200, 1367, 200, 200, 200, 200, 200, 200, 1328,
   1367, 200, 200, 1367, 200, 1367, 200, 200, 1367, 200, 1367, 200, 200, 1367, 200, 200, 200, 200, 1336, 1367,
   1367, 200, 200, 200, 1367, 200, 1367, 200, 200, 1367, 1367, 200, 200, 1367, 1367, 1367, 1367, 200, 200, 1367,
   1367, 1367, 200, 200, 1367, 1336, 1367, 1367, 200, 1367, 200, 1367, 200, 1367, 200, 200, 1367, 1367, 200, 200,
   1367, 1367, 1367, 1367, 200, 46, 46, 46, 46, 46, 88, 1367, 1367, 88, 88, 185, 185, 185, 1367, 185,
   187, 1367, 187, 187, 187, 190, 1367, 190, 190, 190, 200, 1367, 200, 200, 200, 7, 1367, 1367, 1367, 1367,
   1367, 1367, 1367, 1367, 1367, 1367, 1367, 1367, 1367, 1367, 1367, 1367, 1367, 1367, 1367, 1367, 1367, 1367, 1367, 1367,
   1367, 1367, 1367, 1367, 1367, 1367, 1367, 1367, 1367, 1367, 1367, 1367, 1367, 1367, 1367, 1367, 1367, 1367, 1367, 1367,
   1367, 1367, 1367, 1367, 1367, 1367, 1367, 1367, 1367, 1367, 1367, 1367, 1367, 1367, 1367, 1367, 1367, 1367, 1367, 1367,
   1367, 1367, 1367, 1367, 1367, 1367, 1367, 1367, 1367, 1367, 1367, 1367]

/-- src/parser/flex_lexer.cpp:1865-2861, `yy_chk` (9032 entries). -/
def yy_chk : List Nat :=
  [0, 1, 1, 1, 1, 1, 1, 1, 1, 1, 1, 1, 1, 1, 1, 1, 1, 1, 1, 1,
   1, 1, 1, 1, 1, 1, 1, 1, 1, 1, 1, 1, 1, 1, 1, 1, 1, 1, 1, 1,
   1, 1, 1, 1, 1, 1, 1, 1, 1, 1, 1, 1, 1, 1, 1, 1, 1, 1, 1, 1,
   1, 1, 1, 1, 1, 1, 1, 1, 1, 1, 1, 1, 1, 1, 1, 1, 1, 5, 5, 5,
   5, 5, 5, 5, 5, 5, 5, 5, 5, 5, 5, 5, 5, 5, 5, 5, 5, 5, 5, 5,
   5, 5, 5, 5, 5, 5, 5, 5, 5, 5, 5, 5, 5, 5, 5, 5, 5, 5, 5, 5,
   5, 5, 5, 5, 5, 5, 5, 5, 5, 5, 5, 5, 5, 5, 5, 5, 5, 5, 5, 5,
   5, 5, 5, 5, 5, 5, 5, 5, 5, 5, 5, 5, 5, 9, 9, 10, 10, 15, 16, 16,
   16, 16, 16, 16, 16, 16, 16, 16, 15, 17, 17, 17, 17, 17, 17, 17, 17, 17, 17, 17,
   18, 18, 21, 22, 21, 27, 28, 22, 23, 30, 21, 27, 21, 22, 28, 23, 21, 21, 31, 41,
   28, 41, 23, 22, 41, 23, 1370, 44, 23, 21, 22, 21, 27, 28, 22, 23, 30, 21, 27, 21,
   22, 28, 23, 21, 21, 31, 41, 28, 41, 23, 22, 41, 23, 24, 44, 23, 25, 24, 25, 49,
   49, 24, 32, 25, 99, 33, 32, 24, 25, 33, 24, 55, 32, 50, 50, 33, 43, 43, 58, 58,
   24, 1364, 55, 25, 24, 25, 1363, 34, 24, 32, 25, 99, 33, 32, 24, 25, 33, 24, 26, 32,
   36, 34, 33, 43, 43, 100, 26, 34, 34, 26, 103, 36, 26, 29, 34, 26, 1362, 36, 26, 29,
   29, 29, 42, 86, 86, 26, 29, 36, 34, 1361, 42, 1359, 100, 26, 34, 34, 26, 103, 36, 26,
   29, 1357, 26, 35, 36, 26, 29, 29, 29, 42, 104, 35, 38, 29, 101, 35, 38, 42, 35, 35,
   38, 81, 101, 81, 106, 81, 38, 1355, 81, 1353, 35, 102, 1351, 81, 102, 1349, 107, 104, 35, 38,
   1347, 101, 35, 38, 1345, 35, 35, 38, 81, 101, 81, 106, 81, 38, 39, 81, 39, 110, 102, 39,
   81, 102, 39, 107, 39, 113, 39, 39, 56, 56, 56, 56, 56, 56, 56, 56, 56, 56, 188, 188,
   1343, 39, 1341, 39, 110, 1339, 39, 105, 105, 39, 109, 39, 113, 39, 39, 40, 112, 109, 67, 40,
   67, 105, 40, 40, 67, 67, 112, 116, 116, 40, 67, 117, 40, 1337, 105, 105, 1333, 109, 1155, 1155,
   1288, 1288, 40, 112, 109, 67, 40, 67, 105, 40, 40, 67, 67, 112, 116, 116, 40, 67, 117, 40,
   57, 57, 57, 57, 57, 57, 57, 57, 57, 57, 57, 61, 61, 118, 61, 61, 61, 61, 61, 61,
   119, 68, 114, 1329, 1322, 68, 1315, 114, 121, 68, 61, 61, 61, 70, 123, 68, 61, 70, 61, 124,
   118, 120, 120, 70, 61, 68, 61, 119, 68, 114, 61, 61, 68, 70, 114, 121, 68, 125, 127, 1301,
   70, 123, 68, 61, 70, 61, 124, 1287, 120, 120, 70, 61, 68, 61, 1263, 128, 1239, 61, 61, 1193,
   70, 1147, 1072, 997, 125, 127, 61, 62, 62, 898, 62, 62, 62, 62, 62, 62, 799, 671, 129, 71,
   72, 73, 128, 71, 72, 73, 62, 62, 62, 71, 72, 73, 130, 62, 77, 132, 126, 62, 77, 71,
   72, 73, 126, 62, 77, 129, 71, 72, 73, 133, 71, 72, 73, 62, 77, 543, 71, 72, 73, 130,
   62, 77, 132, 126, 62, 77, 71, 72, 73, 126, 62, 77, 416, 288, 83, 135, 133, 83, 83, 136,
   62, 77, 62, 63, 83, 78, 192, 63, 138, 78, 63, 63, 131, 78, 83, 131, 190, 63, 139, 78,
   63, 83, 135, 63, 83, 83, 136, 63, 90, 78, 63, 83, 78, 137, 63, 138, 78, 63, 63, 131,
   78, 83, 131, 137, 63, 139, 78, 63, 137, 137, 63, 88, 85, 82, 63, 64, 78, 82, 84, 64,
   137, 82, 84, 64, 140, 141, 144, 82, 84, 64, 137, 142, 64, 142, 145, 137, 137, 82, 84, 64,
   82, 60, 64, 59, 82, 84, 64, 52, 82, 84, 64, 140, 141, 144, 82, 84, 64, 51, 142, 64,
   142, 145, 146, 147, 82, 84, 64, 65, 111, 111, 111, 65, 111, 115, 65, 115, 65, 65, 115, 149,
   143, 65, 143, 150, 115, 151, 65, 65, 47, 146, 147, 115, 45, 143, 65, 111, 111, 111, 65, 111,
   115, 65, 115, 65, 65, 115, 149, 143, 65, 143, 150, 115, 151, 65, 65, 66, 148, 153, 115, 148,
   143, 154, 66, 66, 155, 156, 66, 157, 122, 66, 122, 159, 66, 158, 122, 66, 20, 158, 161, 19,
   163, 122, 66, 148, 153, 122, 148, 11, 154, 66, 66, 155, 156, 66, 157, 122, 66, 122, 159, 66,
   158, 122, 66, 69, 158, 161, 162, 163, 122, 69, 69, 69, 122, 160, 165, 164, 69, 162, 160, 166,
   167, 69, 7, 168, 164, 169, 160, 170, 165, 4, 69, 160, 164, 162, 172, 173, 69, 69, 69, 3,
   160, 165, 164, 69, 162, 160, 166, 167, 69, 74, 168, 164, 169, 160, 170, 165, 74, 171, 160, 164,
   174, 172, 173, 74, 177, 176, 74, 0, 171, 74, 74, 0, 176, 178, 175, 176, 74, 0, 0, 181,
   179, 182, 183, 74, 171, 0, 179, 174, 0, 291, 74, 177, 176, 74, 175, 171, 74, 74, 75, 176,
   178, 175, 176, 75, 180, 75, 181, 179, 182, 183, 293, 75, 75, 179, 294, 75, 291, 180, 75, 75,
   0, 175, 0, 0, 0, 75, 0, 0, 0, 0, 75, 180, 75, 0, 0, 0, 296, 293, 75, 75,
   0, 294, 75, 208, 180, 75, 75, 76, 208, 200, 208, 201, 201, 200, 76, 208, 201, 298, 76, 200,
   208, 76, 201, 296, 76, 299, 300, 76, 0, 200, 208, 301, 201, 0, 76, 208, 200, 208, 201, 201,
   200, 76, 208, 201, 298, 76, 200, 208, 76, 201, 0, 76, 299, 300, 76, 79, 200, 79, 301, 201,
   79, 79, 302, 79, 203, 79, 203, 79, 79, 0, 0, 203, 203, 0, 0, 303, 203, 79, 0, 0,
   0, 0, 79, 0, 79, 0, 0, 79, 79, 302, 79, 203, 79, 203, 79, 79, 202, 209, 203, 203,
   202, 209, 303, 203, 79, 80, 202, 209, 205, 80, 205, 202, 80, 80, 205, 205, 202, 209, 305, 80,
   205, 306, 80, 202, 209, 307, 308, 202, 209, 80, 0, 0, 80, 202, 209, 205, 80, 205, 202, 80,
   80, 205, 205, 202, 209, 305, 80, 205, 306, 80, 0, 0, 307, 308, 0, 0, 80, 91, 91, 91,
   91, 91, 91, 91, 91, 91, 91, 92, 92, 92, 92, 92, 92, 92, 92, 92, 92, 93, 93, 93,
   93, 93, 93, 93, 93, 93, 93, 93, 193, 193, 193, 193, 193, 193, 193, 193, 193, 193, 194, 194,
   194, 194, 194, 194, 194, 194, 194, 194, 195, 195, 195, 195, 195, 195, 195, 195, 195, 195, 195, 204,
   206, 304, 204, 304, 309, 310, 311, 312, 0, 206, 204, 206, 204, 313, 314, 210, 206, 204, 304, 210,
   315, 206, 204, 0, 0, 210, 204, 206, 304, 204, 304, 309, 310, 311, 312, 210, 206, 204, 206, 204,
   313, 314, 210, 206, 204, 304, 210, 315, 206, 204, 207, 207, 210, 211, 316, 211, 207, 0, 207, 317,
   211, 212, 210, 207, 207, 211, 319, 320, 207, 321, 322, 0, 212, 323, 212, 0, 324, 207, 207, 212,
   211, 316, 211, 207, 212, 207, 317, 211, 212, 0, 207, 207, 211, 319, 320, 207, 321, 322, 214, 212,
   323, 212, 214, 324, 325, 0, 212, 318, 214, 0, 0, 212, 213, 213, 213, 0, 213, 215, 214, 213,
   0, 215, 318, 327, 213, 214, 221, 215, 221, 214, 215, 325, 216, 221, 318, 214, 216, 215, 221, 213,
   213, 213, 216, 213, 215, 214, 213, 216, 215, 318, 327, 213, 216, 221, 215, 221, 328, 215, 0, 216,
   221, 0, 329, 216, 215, 221, 0, 0, 0, 216, 330, 0, 0, 0, 216, 331, 0, 332, 333, 216,
   217, 0, 217, 328, 0, 217, 334, 335, 218, 329, 218, 217, 0, 217, 218, 218, 0, 330, 217, 219,
   218, 219, 331, 217, 332, 333, 219, 217, 219, 217, 336, 219, 217, 334, 335, 218, 337, 218, 217, 220,
   217, 218, 218, 220, 337, 217, 219, 218, 219, 220, 217, 338, 339, 219, 340, 219, 223, 336, 219, 220,
   0, 0, 341, 337, 227, 223, 220, 223, 227, 0, 220, 337, 223, 225, 227, 225, 220, 223, 338, 339,
   225, 340, 342, 223, 227, 225, 220, 222, 222, 341, 0, 227, 223, 343, 223, 227, 222, 0, 222, 223,
   225, 227, 225, 222, 223, 344, 345, 225, 222, 342, 346, 227, 225, 347, 222, 222, 348, 226, 349, 226,
   343, 0, 0, 222, 226, 222, 0, 0, 0, 226, 222, 0, 344, 345, 0, 222, 224, 346, 224, 0,
   347, 0, 224, 348, 226, 349, 226, 350, 224, 224, 229, 226, 352, 224, 229, 228, 226, 228, 224, 0,
   229, 228, 228, 224, 353, 224, 230, 228, 230, 224, 229, 0, 355, 230, 350, 224, 224, 229, 230, 352,
   224, 229, 228, 356, 228, 224, 231, 229, 228, 228, 231, 353, 0, 230, 228, 230, 231, 229, 232, 355,
   230, 357, 232, 358, 351, 230, 231, 360, 232, 233, 356, 233, 361, 231, 351, 362, 233, 231, 232, 233,
   234, 233, 234, 231, 0, 232, 0, 234, 357, 232, 358, 351, 234, 231, 360, 232, 233, 363, 233, 361,
   364, 351, 362, 233, 0, 232, 233, 234, 233, 234, 236, 235, 236, 235, 234, 366, 359, 236, 235, 234,
   235, 237, 236, 235, 363, 237, 359, 364, 0, 0, 0, 237, 0, 0, 0, 0, 367, 236, 235, 236,
   235, 237, 366, 359, 236, 235, 368, 235, 237, 236, 235, 238, 237, 359, 369, 238, 241, 240, 237, 240,
   241, 238, 238, 367, 240, 370, 241, 371, 237, 240, 372, 238, 0, 368, 0, 242, 241, 0, 238, 242,
   0, 369, 238, 241, 240, 242, 240, 241, 238, 238, 0, 240, 370, 241, 371, 242, 240, 372, 238, 239,
   243, 243, 242, 241, 243, 373, 242, 239, 374, 239, 243, 246, 242, 246, 239, 239, 0, 246, 246, 239,
   243, 0, 242, 246, 373, 0, 239, 243, 243, 0, 0, 243, 373, 0, 239, 374, 239, 243, 246, 257,
   246, 239, 239, 257, 246, 246, 239, 243, 244, 257, 246, 373, 244, 247, 244, 247, 244, 260, 244, 257,
   247, 260, 376, 377, 0, 247, 257, 260, 244, 0, 257, 0, 0, 378, 0, 244, 257, 260, 375, 244,
   247, 244, 247, 244, 260, 244, 257, 247, 260, 376, 377, 375, 247, 0, 260, 244, 245, 379, 245, 248,
   378, 248, 380, 381, 260, 375, 248, 245, 249, 245, 249, 248, 382, 383, 245, 249, 249, 384, 375, 245,
   249, 0, 385, 245, 379, 245, 248, 386, 248, 380, 381, 0, 0, 248, 245, 249, 245, 249, 248, 382,
   383, 245, 249, 249, 384, 0, 245, 249, 250, 385, 250, 251, 0, 251, 386, 250, 250, 0, 251, 250,
   250, 252, 0, 251, 254, 387, 254, 389, 0, 390, 0, 254, 252, 0, 252, 250, 254, 250, 251, 252,
   251, 0, 250, 250, 252, 251, 250, 250, 252, 253, 251, 254, 387, 254, 389, 253, 390, 253, 254, 252,
   255, 252, 253, 254, 0, 391, 252, 253, 255, 0, 255, 252, 0, 0, 392, 255, 253, 393, 394, 0,
   255, 395, 253, 0, 253, 0, 396, 255, 397, 253, 0, 256, 391, 256, 253, 255, 258, 255, 256, 256,
   258, 392, 255, 256, 393, 394, 258, 255, 395, 258, 261, 0, 261, 396, 398, 397, 258, 261, 256, 399,
   256, 0, 261, 258, 259, 256, 256, 258, 259, 401, 256, 403, 259, 258, 0, 263, 258, 261, 259, 261,
   263, 398, 263, 258, 261, 405, 399, 263, 259, 261, 0, 259, 263, 0, 0, 259, 401, 0, 403, 259,
   0, 402, 263, 0, 0, 259, 264, 263, 264, 263, 402, 0, 405, 264, 263, 259, 262, 264, 264, 263,
   265, 262, 406, 407, 265, 0, 265, 262, 402, 262, 404, 265, 404, 264, 262, 264, 265, 402, 267, 262,
   264, 408, 267, 262, 264, 264, 267, 265, 262, 406, 407, 265, 267, 265, 262, 0, 262, 404, 265, 404,
   268, 262, 267, 265, 268, 267, 262, 266, 408, 267, 268, 409, 410, 267, 411, 413, 266, 0, 266, 267,
   268, 0, 269, 266, 266, 0, 269, 268, 266, 267, 269, 268, 0, 0, 266, 0, 269, 268, 409, 410,
   412, 411, 413, 266, 412, 266, 269, 268, 270, 269, 266, 266, 270, 269, 414, 266, 271, 269, 270, 272,
   271, 270, 272, 269, 271, 544, 272, 412, 270, 545, 271, 412, 272, 269, 0, 270, 0, 546, 547, 270,
   271, 414, 272, 271, 548, 270, 272, 271, 270, 272, 274, 271, 544, 272, 274, 270, 545, 271, 0, 272,
   274, 273, 273, 273, 546, 547, 549, 271, 273, 272, 274, 548, 275, 273, 276, 550, 275, 274, 276, 0,
   275, 274, 275, 551, 276, 276, 0, 274, 273, 273, 273, 0, 275, 549, 276, 273, 0, 274, 552, 275,
   273, 276, 550, 275, 280, 276, 277, 275, 280, 275, 551, 276, 276, 277, 280, 554, 557, 279, 279, 275,
   277, 276, 279, 277, 280, 552, 277, 0, 279, 0, 0, 280, 558, 277, 0, 280, 0, 0, 279, 0,
   277, 280, 554, 557, 279, 279, 559, 277, 560, 279, 277, 280, 0, 277, 278, 279, 281, 278, 281, 558,
   562, 278, 281, 281, 278, 279, 282, 278, 281, 0, 282, 563, 564, 559, 0, 560, 282, 278, 0, 282,
   565, 278, 567, 281, 278, 281, 282, 562, 278, 281, 281, 278, 283, 282, 278, 281, 283, 282, 563, 564,
   0, 284, 283, 282, 278, 284, 282, 565, 568, 567, 285, 284, 283, 282, 285, 422, 284, 422, 285, 283,
   569, 284, 422, 283, 285, 570, 571, 422, 284, 283, 572, 573, 284, 574, 285, 568, 0, 285, 284, 283,
   0, 285, 422, 284, 422, 285, 0, 569, 284, 422, 0, 285, 570, 571, 422, 0, 0, 572, 573, 0,
   574, 285, 289, 289, 289, 289, 289, 289, 289, 289, 289, 289, 417, 417, 417, 417, 417, 417, 417, 417,
   417, 417, 418, 419, 420, 421, 418, 419, 420, 421, 575, 578, 418, 419, 420, 421, 0, 579, 580, 0,
   581, 0, 418, 419, 420, 421, 0, 0, 0, 418, 419, 420, 421, 418, 419, 420, 421, 575, 578, 418,
   419, 420, 421, 424, 579, 580, 423, 581, 423, 418, 419, 420, 421, 423, 424, 425, 424, 425, 423, 426,
   0, 424, 425, 426, 0, 582, 424, 425, 0, 426, 424, 583, 0, 423, 584, 423, 585, 0, 0, 426,
   423, 424, 425, 424, 425, 423, 426, 427, 424, 425, 426, 427, 582, 424, 425, 428, 426, 427, 583, 428,
   429, 584, 587, 585, 429, 428, 426, 427, 0, 430, 429, 430, 588, 428, 427, 428, 430, 589, 427, 590,
   429, 430, 428, 431, 427, 431, 428, 429, 593, 587, 431, 429, 428, 594, 427, 431, 430, 429, 430, 588,
   428, 433, 428, 430, 589, 433, 590, 429, 430, 0, 431, 433, 431, 0, 433, 593, 0, 431, 0, 0,
   594, 433, 431, 432, 0, 432, 434, 596, 433, 432, 434, 598, 433, 599, 0, 432, 434, 600, 433, 435,
   432, 433, 434, 435, 0, 432, 434, 435, 433, 435, 432, 437, 432, 434, 596, 437, 432, 434, 598, 435,
   599, 437, 432, 434, 600, 0, 435, 432, 0, 434, 435, 437, 432, 434, 435, 436, 435, 0, 437, 436,
   0, 601, 437, 438, 602, 436, 435, 438, 437, 603, 436, 438, 439, 0, 439, 436, 0, 438, 437, 439,
   606, 0, 436, 0, 439, 0, 436, 438, 601, 604, 438, 602, 436, 610, 438, 612, 603, 436, 438, 439,
   604, 439, 436, 440, 438, 440, 439, 606, 441, 440, 440, 439, 441, 613, 438, 440, 604, 442, 441, 442,
   610, 615, 612, 617, 442, 618, 0, 604, 441, 442, 440, 443, 440, 443, 0, 441, 440, 440, 443, 441,
   613, 0, 440, 443, 442, 441, 442, 0, 615, 444, 617, 442, 618, 444, 619, 441, 442, 0, 443, 444,
   443, 616, 616, 445, 446, 443, 621, 445, 446, 444, 443, 445, 0, 622, 446, 623, 444, 445, 624, 446,
   444, 619, 0, 626, 446, 0, 444, 445, 616, 616, 445, 446, 0, 621, 445, 446, 444, 447, 445, 447,
   622, 446, 623, 447, 445, 624, 446, 627, 448, 447, 626, 446, 448, 0, 445, 629, 0, 449, 448, 447,
   0, 449, 630, 631, 447, 632, 447, 449, 448, 0, 447, 0, 449, 0, 627, 448, 447, 449, 0, 448,
   450, 0, 629, 450, 449, 448, 447, 450, 449, 630, 631, 0, 632, 450, 449, 448, 452, 634, 451, 449,
   452, 453, 451, 450, 449, 453, 452, 450, 451, 451, 450, 453, 635, 636, 450, 0, 452, 637, 451, 0,
   450, 453, 638, 452, 634, 451, 640, 452, 453, 451, 450, 641, 453, 452, 0, 451, 451, 454, 453, 635,
   636, 454, 455, 452, 637, 451, 455, 454, 453, 638, 455, 456, 0, 640, 0, 456, 455, 454, 641, 642,
   458, 456, 458, 459, 454, 459, 455, 458, 454, 455, 459, 456, 458, 455, 454, 459, 0, 455, 456, 457,
   0, 457, 456, 455, 454, 457, 642, 458, 456, 458, 459, 457, 459, 455, 458, 643, 646, 459, 456, 458,
   0, 457, 459, 460, 647, 460, 457, 462, 457, 460, 460, 462, 457, 648, 461, 460, 461, 462, 457, 649,
   650, 461, 643, 646, 653, 463, 461, 462, 457, 463, 460, 647, 460, 463, 462, 0, 460, 460, 462, 463,
   648, 461, 460, 461, 462, 654, 649, 650, 461, 463, 656, 653, 463, 461, 462, 464, 463, 464, 657, 658,
   463, 465, 464, 0, 659, 465, 463, 464, 660, 465, 466, 465, 654, 661, 466, 0, 463, 656, 466, 662,
   466, 465, 464, 663, 464, 657, 658, 0, 465, 464, 466, 659, 465, 0, 464, 660, 465, 466, 465, 0,
   661, 466, 467, 468, 467, 466, 662, 466, 465, 467, 663, 0, 664, 468, 467, 468, 666, 466, 0, 668,
   468, 0, 0, 670, 0, 468, 469, 0, 469, 467, 468, 467, 0, 469, 0, 469, 467, 0, 469, 664,
   468, 467, 468, 666, 471, 470, 668, 468, 471, 470, 670, 470, 468, 469, 471, 469, 470, 802, 0, 472,
   469, 470, 469, 472, 471, 469, 0, 804, 0, 472, 0, 471, 470, 806, 472, 471, 470, 807, 470, 472,
   0, 471, 808, 470, 802, 473, 472, 809, 470, 473, 472, 471, 0, 474, 804, 473, 472, 474, 473, 474,
   806, 472, 0, 474, 807, 473, 472, 475, 0, 808, 0, 475, 473, 474, 809, 810, 473, 475, 0, 476,
   474, 811, 473, 476, 474, 473, 474, 475, 0, 476, 474, 477, 473, 478, 475, 477, 812, 478, 475, 476,
   474, 477, 810, 478, 475, 479, 476, 813, 811, 479, 476, 477, 0, 478, 475, 479, 476, 480, 477, 0,
   478, 480, 477, 812, 478, 479, 476, 480, 477, 814, 478, 816, 479, 480, 813, 817, 479, 480, 477, 481,
   478, 481, 479, 482, 480, 482, 481, 0, 480, 818, 482, 481, 479, 0, 480, 482, 814, 0, 816, 819,
   480, 484, 817, 0, 480, 484, 481, 483, 481, 483, 482, 484, 482, 481, 483, 483, 818, 482, 481, 483,
   485, 484, 482, 488, 485, 488, 819, 488, 484, 820, 485, 0, 484, 488, 483, 0, 483, 821, 484, 823,
   485, 483, 483, 488, 486, 486, 483, 485, 484, 486, 488, 485, 488, 824, 488, 486, 820, 485, 491, 489,
   488, 489, 491, 489, 821, 486, 823, 485, 491, 489, 488, 486, 486, 491, 0, 825, 486, 0, 491, 489,
   824, 826, 486, 0, 827, 491, 489, 0, 489, 491, 489, 828, 486, 487, 490, 491, 489, 487, 490, 0,
   491, 487, 825, 487, 490, 491, 489, 487, 826, 829, 490, 827, 0, 830, 490, 0, 0, 487, 828, 492,
   487, 490, 493, 492, 487, 490, 493, 831, 487, 492, 487, 490, 493, 832, 487, 492, 829, 490, 833, 492,
   830, 490, 493, 494, 487, 836, 492, 494, 0, 493, 492, 494, 837, 493, 831, 0, 492, 494, 838, 493,
   832, 495, 492, 495, 0, 833, 492, 494, 495, 493, 494, 839, 836, 495, 494, 496, 0, 496, 494, 837,
   0, 496, 496, 840, 494, 838, 0, 496, 495, 497, 495, 497, 841, 498, 494, 495, 497, 498, 839, 0,
   495, 497, 496, 498, 496, 0, 844, 499, 496, 496, 840, 499, 847, 498, 496, 0, 497, 499, 497, 841,
   498, 0, 500, 497, 498, 848, 500, 499, 497, 502, 498, 502, 500, 844, 499, 500, 502, 0, 499, 847,
   498, 502, 500, 0, 499, 850, 853, 0, 506, 500, 506, 0, 848, 500, 499, 506, 502, 0, 502, 500,
   506, 856, 500, 502, 504, 504, 504, 0, 502, 500, 501, 504, 850, 853, 501, 506, 504, 506, 501, 857,
   0, 858, 506, 849, 501, 859, 849, 506, 856, 501, 860, 504, 504, 504, 501, 0, 861, 501, 504, 864,
   865, 501, 505, 504, 0, 501, 857, 505, 858, 505, 849, 501, 859, 849, 505, 866, 501, 860, 867, 505,
   507, 501, 503, 861, 507, 868, 864, 865, 0, 505, 507, 503, 0, 503, 505, 503, 505, 870, 503, 871,
   507, 505, 866, 503, 0, 867, 505, 507, 0, 503, 872, 507, 868, 874, 0, 508, 0, 507, 503, 508,
   503, 0, 503, 508, 870, 503, 871, 507, 509, 508, 503, 510, 509, 875, 510, 510, 0, 872, 509, 508,
   874, 510, 508, 509, 0, 511, 508, 511, 509, 0, 508, 510, 511, 876, 0, 509, 508, 511, 510, 509,
   875, 510, 510, 513, 0, 509, 508, 513, 510, 512, 509, 512, 511, 513, 511, 509, 512, 877, 510, 511,
   876, 512, 514, 513, 511, 515, 514, 516, 879, 515, 513, 516, 514, 880, 513, 515, 512, 516, 512, 520,
   513, 520, 514, 512, 877, 515, 520, 516, 512, 514, 513, 520, 515, 514, 516, 879, 515, 517, 516, 514,
   880, 517, 515, 881, 516, 882, 520, 517, 520, 514, 517, 518, 515, 520, 516, 518, 519, 517, 520, 883,
   519, 518, 884, 885, 517, 886, 519, 519, 517, 518, 881, 518, 882, 521, 517, 521, 519, 517, 518, 887,
   521, 521, 518, 519, 517, 521, 883, 519, 518, 884, 885, 0, 886, 519, 519, 0, 518, 522, 518, 522,
   521, 889, 521, 519, 522, 522, 887, 521, 521, 522, 890, 523, 521, 523, 891, 524, 893, 524, 523, 524,
   894, 895, 524, 523, 522, 998, 522, 524, 889, 0, 0, 522, 522, 0, 0, 0, 522, 890, 523, 0,
   523, 891, 524, 893, 524, 523, 524, 894, 895, 524, 523, 525, 998, 525, 524, 526, 527, 526, 525, 525,
   527, 528, 526, 525, 1000, 528, 527, 526, 0, 1002, 0, 528, 1003, 1004, 1005, 0, 527, 0, 525, 1007,
   525, 528, 526, 527, 526, 525, 525, 527, 528, 526, 525, 1000, 528, 527, 526, 529, 1002, 529, 528, 1003,
   1004, 1005, 529, 527, 530, 531, 1007, 529, 528, 531, 0, 530, 1009, 530, 0, 531, 1010, 1011, 530, 1012,
   0, 1013, 529, 530, 529, 531, 1015, 1017, 0, 529, 0, 530, 531, 0, 529, 1019, 531, 532, 530, 1009,
   530, 532, 531, 1010, 1011, 530, 1012, 532, 1013, 532, 530, 533, 531, 1015, 1017, 533, 0, 532, 535, 534,
   535, 533, 1019, 534, 532, 535, 0, 534, 532, 1022, 535, 533, 0, 534, 532, 0, 532, 0, 533, 0,
   0, 0, 533, 534, 532, 535, 534, 535, 533, 0, 534, 1024, 535, 537, 534, 1025, 1022, 535, 533, 536,
   534, 536, 537, 1026, 537, 538, 536, 538, 536, 537, 534, 536, 538, 0, 537, 0, 538, 538, 1024, 1027,
   537, 0, 1025, 1034, 0, 0, 536, 0, 536, 537, 1026, 537, 538, 536, 538, 536, 537, 1035, 536, 538,
   539, 537, 539, 538, 538, 1036, 1027, 539, 539, 540, 1034, 540, 539, 1039, 541, 540, 540, 0, 541, 0,
   541, 540, 1041, 0, 1035, 541, 0, 539, 0, 539, 541, 1043, 1036, 0, 539, 539, 540, 0, 540, 539,
   1039, 541, 540, 540, 542, 541, 542, 541, 540, 1041, 542, 542, 541, 672, 1045, 672, 542, 541, 1043, 672,
   672, 0, 673, 1046, 673, 672, 0, 0, 673, 673, 0, 542, 1047, 542, 673, 0, 0, 542, 542, 0,
   672, 1045, 672, 542, 674, 0, 672, 672, 674, 673, 1046, 673, 672, 675, 674, 673, 673, 675, 1048, 1047,
   677, 673, 677, 675, 674, 1049, 676, 677, 1050, 1052, 676, 674, 677, 675, 1053, 674, 676, 0, 678, 676,
   675, 674, 678, 0, 675, 1048, 676, 677, 678, 677, 675, 674, 1049, 676, 677, 1050, 1052, 676, 678, 677,
   675, 1053, 1054, 676, 680, 678, 676, 0, 680, 678, 679, 0, 679, 676, 680, 678, 681, 679, 1055, 0,
   681, 0, 679, 0, 680, 678, 681, 1057, 1059, 1054, 1061, 680, 1062, 0, 682, 680, 681, 679, 682, 679,
   1063, 680, 682, 681, 679, 1055, 683, 681, 682, 679, 683, 680, 1064, 681, 1057, 1059, 683, 1061, 682, 1062,
   684, 682, 1065, 681, 684, 682, 683, 1063, 685, 682, 684, 0, 685, 683, 1070, 682, 685, 683, 1071, 1064,
   684, 0, 685, 683, 1152, 682, 686, 684, 1156, 1065, 686, 684, 685, 683, 686, 685, 686, 684, 687, 685,
   1157, 1070, 687, 685, 1160, 1071, 686, 684, 687, 685, 0, 1152, 689, 686, 0, 1156, 689, 686, 687, 685,
   0, 686, 689, 686, 688, 687, 690, 1157, 688, 687, 690, 1160, 689, 686, 688, 687, 690, 688, 1161, 689,
   691, 690, 691, 689, 688, 687, 690, 691, 1162, 689, 692, 688, 691, 690, 692, 688, 0, 690, 0, 689,
   692, 688, 694, 690, 688, 1161, 694, 691, 690, 691, 692, 688, 694, 690, 691, 1162, 693, 692, 0, 691,
   693, 692, 694, 695, 0, 695, 693, 692, 702, 694, 695, 693, 702, 694, 1166, 695, 693, 692, 702, 694,
   0, 1169, 0, 693, 696, 696, 696, 693, 702, 694, 695, 696, 695, 693, 1170, 702, 696, 695, 693, 702,
   0, 1166, 695, 693, 1173, 702, 1174, 697, 1169, 697, 1175, 696, 696, 696, 697, 702, 697, 1176, 696, 697,
   698, 1170, 698, 696, 1179, 0, 1180, 698, 698, 1181, 0, 1173, 698, 1174, 697, 0, 697, 1175, 0, 699,
   0, 697, 1184, 697, 1176, 1186, 697, 698, 1187, 698, 699, 1179, 699, 1180, 698, 698, 1181, 699, 700, 698,
   700, 0, 699, 1188, 700, 700, 699, 701, 1189, 1184, 700, 1190, 1186, 0, 0, 1187, 701, 699, 701, 699,
   0, 1240, 1243, 701, 699, 700, 1247, 700, 701, 699, 1188, 700, 700, 0, 701, 1189, 1248, 700, 1190, 703,
   704, 703, 704, 701, 1251, 701, 703, 704, 1240, 1243, 701, 703, 704, 1247, 1252, 701, 1241, 1241, 705, 0,
   705, 1253, 1254, 1248, 0, 705, 703, 704, 703, 704, 705, 1251, 1258, 703, 704, 0, 706, 1259, 703, 704,
   1260, 1252, 1262, 0, 706, 705, 706, 705, 1253, 1254, 1289, 706, 705, 1290, 1241, 1293, 706, 705, 707, 1258,
   707, 0, 707, 706, 1259, 707, 0, 1260, 0, 1262, 707, 706, 708, 706, 708, 0, 708, 1289, 706, 708,
   1290, 1241, 1293, 706, 708, 707, 709, 707, 709, 707, 1296, 0, 707, 709, 1299, 709, 0, 707, 709, 708,
   710, 708, 710, 708, 0, 711, 708, 710, 710, 0, 1303, 708, 710, 709, 0, 709, 711, 1296, 711, 0,
   709, 1299, 709, 711, 1317, 709, 713, 710, 711, 710, 713, 712, 711, 0, 710, 710, 713, 1303, 1321, 710,
   1316, 1316, 712, 711, 712, 711, 713, 0, 0, 712, 711, 1317, 714, 713, 712, 711, 714, 713, 712, 0,
   715, 1324, 714, 713, 715, 1321, 1330, 0, 1334, 712, 715, 712, 714, 713, 716, 715, 712, 0, 716, 714,
   715, 712, 1316, 714, 716, 0, 717, 715, 1324, 714, 717, 715, 1338, 1330, 716, 1334, 717, 715, 1340, 714,
   718, 716, 715, 0, 718, 716, 717, 715, 718, 1316, 1342, 716, 719, 717, 718, 0, 719, 717, 1344, 1338,
   1346, 716, 719, 717, 718, 1340, 720, 718, 1348, 0, 720, 718, 719, 717, 721, 718, 720, 1342, 721, 719,
   0, 718, 721, 719, 1350, 1344, 720, 1346, 721, 719, 0, 718, 1352, 720, 0, 1348, 722, 720, 721, 719,
   722, 721, 1354, 720, 723, 721, 722, 722, 723, 721, 724, 1350, 724, 720, 723, 721, 722, 724, 0, 1352,
   1323, 1323, 724, 722, 723, 721, 0, 722, 1356, 1354, 0, 723, 727, 722, 722, 723, 727, 724, 725, 724,
   725, 723, 727, 722, 724, 725, 726, 0, 726, 724, 725, 723, 727, 726, 729, 1356, 729, 0, 726, 727,
   0, 729, 1323, 727, 0, 725, 729, 725, 0, 727, 0, 0, 725, 726, 728, 726, 0, 725, 728, 727,
   726, 729, 0, 729, 728, 726, 0, 728, 729, 1323, 730, 0, 730, 729, 728, 0, 730, 730, 0, 0,
   0, 728, 730, 1265, 1265, 728, 731, 0, 731, 0, 0, 728, 731, 731, 728, 0, 0, 730, 731, 730,
   733, 728, 733, 730, 730, 0, 0, 733, 0, 730, 0, 0, 733, 731, 0, 731, 0, 0, 0, 731,
   731, 1265, 0, 0, 0, 731, 732, 733, 734, 733, 734, 732, 0, 732, 733, 734, 0, 732, 732, 733,
   734, 0, 735, 732, 735, 0, 0, 0, 1265, 735, 0, 0, 0, 732, 735, 734, 0, 734, 732, 0,
   732, 736, 734, 736, 732, 732, 0, 734, 736, 735, 732, 735, 737, 736, 737, 738, 735, 738, 0, 737,
   0, 735, 738, 738, 737, 0, 0, 738, 736, 0, 736, 739, 0, 739, 0, 736, 0, 0, 739, 737,
   736, 737, 738, 739, 738, 740, 737, 740, 0, 738, 738, 737, 740, 0, 738, 0, 0, 740, 739, 0,
   739, 0, 0, 741, 0, 739, 0, 741, 0, 0, 739, 742, 740, 741, 740, 742, 743, 0, 0, 740,
   743, 742, 0, 741, 740, 744, 743, 744, 0, 0, 741, 742, 744, 744, 741, 745, 743, 744, 742, 745,
   741, 745, 742, 743, 0, 0, 745, 743, 742, 0, 741, 745, 744, 743, 744, 0, 0, 0, 742, 744,
   744, 0, 745, 743, 744, 746, 745, 746, 745, 0, 747, 746, 746, 745, 747, 748, 0, 746, 745, 748,
   747, 749, 0, 749, 769, 748, 769, 749, 0, 0, 747, 769, 746, 749, 746, 748, 769, 747, 746, 746,
   0, 747, 748, 749, 746, 750, 748, 747, 749, 750, 749, 769, 748, 769, 749, 750, 0, 747, 769, 0,
   749, 0, 748, 769, 751, 750, 0, 0, 751, 0, 749, 0, 750, 0, 751, 0, 750, 751, 774, 0,
   774, 0, 750, 752, 751, 774, 0, 752, 0, 0, 774, 751, 750, 752, 0, 751, 752, 0, 753, 0,
   0, 751, 753, 752, 751, 774, 0, 774, 753, 0, 752, 751, 774, 0, 752, 0, 0, 774, 753, 0,
   752, 0, 0, 752, 754, 753, 0, 755, 754, 753, 752, 755, 754, 0, 754, 753, 756, 755, 0, 0,
   756, 0, 0, 0, 754, 753, 756, 755, 0, 0, 0, 754, 0, 0, 755, 754, 756, 0, 755, 754,
   0, 754, 757, 756, 755, 0, 757, 756, 0, 0, 0, 754, 757, 756, 755, 0, 758, 759, 0, 0,
   758, 759, 757, 756, 758, 759, 0, 0, 0, 757, 758, 759, 0, 757, 0, 0, 0, 0, 0, 757,
   758, 759, 0, 758, 759, 0, 760, 758, 759, 757, 760, 758, 759, 0, 0, 761, 760, 758, 759, 761,
   0, 0, 0, 0, 0, 761, 760, 758, 759, 0, 0, 0, 0, 760, 762, 761, 0, 760, 762, 0,
   0, 0, 761, 760, 762, 0, 761, 762, 0, 0, 0, 0, 761, 760, 762, 0, 763, 0, 0, 764,
   763, 762, 761, 764, 763, 762, 763, 0, 0, 764, 0, 762, 764, 0, 762, 0, 763, 0, 0, 764,
   0, 762, 0, 763, 0, 765, 764, 763, 767, 765, 764, 763, 767, 763, 766, 765, 764, 766, 767, 764,
   765, 766, 0, 763, 0, 765, 764, 766, 767, 0, 768, 0, 765, 0, 768, 767, 765, 766, 768, 767,
   768, 766, 765, 0, 766, 767, 0, 765, 766, 0, 768, 0, 765, 0, 766, 767, 771, 768, 0, 770,
   771, 768, 0, 0, 766, 768, 771, 768, 770, 772, 770, 0, 0, 772, 773, 770, 771, 768, 773, 772,
   770, 0, 0, 771, 773, 0, 770, 771, 775, 772, 0, 0, 775, 771, 773, 770, 772, 770, 775, 0,
   772, 773, 770, 771, 0, 773, 772, 770, 775, 0, 776, 773, 0, 777, 776, 775, 772, 777, 778, 775,
   776, 773, 778, 777, 0, 775, 0, 0, 778, 0, 776, 0, 779, 777, 0, 775, 779, 776, 778, 0,
   777, 776, 779, 0, 777, 778, 0, 776, 0, 778, 777, 0, 779, 0, 780, 778, 0, 776, 780, 779,
   777, 0, 0, 779, 780, 778, 781, 0, 781, 779, 782, 0, 782, 781, 780, 0, 0, 782, 781, 779,
   0, 780, 782, 0, 0, 780, 0, 0, 0, 0, 0, 780, 0, 781, 0, 781, 783, 782, 783, 782,
   781, 780, 0, 783, 782, 781, 784, 0, 783, 782, 0, 0, 785, 0, 785, 784, 791, 784, 0, 785,
   791, 785, 784, 783, 785, 783, 791, 784, 0, 0, 783, 0, 0, 784, 0, 783, 791, 0, 786, 785,
   786, 785, 784, 791, 784, 786, 785, 791, 785, 784, 786, 785, 0, 791, 784, 0, 0, 787, 0, 787,
   788, 0, 0, 791, 787, 786, 787, 786, 789, 787, 789, 788, 786, 788, 0, 789, 789, 786, 788, 0,
   789, 0, 0, 788, 787, 0, 787, 788, 0, 0, 0, 787, 0, 787, 790, 789, 787, 789, 788, 790,
   788, 790, 789, 789, 793, 788, 790, 789, 793, 792, 788, 790, 792, 792, 793, 0, 0, 0, 0, 792,
   0, 790, 0, 0, 793, 0, 790, 0, 790, 792, 0, 793, 0, 790, 0, 793, 792, 0, 790, 792,
   792, 793, 0, 794, 795, 796, 792, 794, 795, 796, 0, 793, 0, 794, 795, 796, 792, 797, 0, 794,
   0, 797, 0, 794, 795, 796, 798, 797, 798, 0, 794, 795, 796, 798, 794, 795, 796, 797, 798, 0,
   794, 795, 796, 0, 797, 0, 794, 0, 797, 0, 794, 795, 796, 798, 797, 798, 899, 0, 899, 900,
   798, 900, 0, 899, 797, 798, 900, 901, 899, 901, 902, 900, 902, 0, 901, 0, 0, 902, 0, 901,
   0, 901, 902, 899, 0, 899, 900, 0, 900, 0, 899, 0, 0, 900, 901, 899, 901, 902, 900, 902,
   0, 901, 0, 903, 902, 0, 901, 903, 901, 902, 0, 904, 905, 903, 0, 904, 905, 0, 0, 0,
   0, 904, 905, 903, 0, 0, 0, 0, 0, 0, 903, 904, 905, 0, 903, 0, 0, 906, 904, 905,
   903, 906, 904, 905, 0, 0, 0, 906, 904, 905, 903, 0, 906, 0, 0, 908, 908, 906, 904, 905,
   908, 907, 0, 0, 906, 907, 908, 0, 906, 907, 0, 0, 0, 0, 906, 907, 908, 0, 0, 906,
   0, 0, 908, 908, 906, 907, 0, 908, 907, 909, 0, 909, 907, 908, 0, 909, 907, 910, 911, 910,
   911, 909, 907, 908, 910, 911, 911, 0, 0, 910, 911, 909, 907, 0, 0, 0, 909, 0, 909, 912,
   0, 0, 909, 912, 910, 911, 910, 911, 909, 912, 0, 910, 911, 911, 0, 0, 910, 911, 909, 912,
   0, 913, 915, 914, 915, 913, 912, 914, 0, 915, 912, 913, 0, 914, 915, 916, 912, 0, 0, 916,
   0, 913, 0, 914, 0, 916, 912, 0, 913, 915, 914, 915, 913, 917, 914, 916, 915, 917, 913, 0,
   914, 915, 916, 917, 0, 0, 916, 918, 913, 0, 914, 918, 916, 917, 0, 918, 919, 0, 919, 0,
   917, 918, 916, 919, 917, 0, 0, 0, 919, 920, 917, 918, 0, 920, 918, 0, 0, 921, 918, 920,
   917, 921, 918, 919, 0, 919, 0, 921, 918, 920, 919, 0, 0, 0, 0, 919, 920, 921, 918, 922,
   920, 0, 0, 922, 921, 0, 920, 923, 921, 922, 0, 923, 0, 924, 921, 924, 920, 923, 0, 922,
   924, 0, 923, 0, 921, 924, 922, 923, 0, 0, 922, 925, 0, 926, 923, 925, 922, 926, 923, 0,
   924, 925, 924, 926, 923, 0, 922, 924, 0, 923, 0, 925, 924, 926, 923, 927, 0, 928, 925, 927,
   926, 928, 925, 0, 926, 927, 0, 928, 925, 0, 926, 0, 928, 0, 0, 927, 0, 928, 925, 0,
   926, 929, 927, 0, 928, 929, 927, 0, 928, 0, 0, 929, 927, 930, 928, 930, 929, 0, 0, 928,
   930, 929, 927, 0, 928, 930, 931, 932, 929, 932, 931, 933, 929, 932, 0, 933, 931, 0, 929, 932,
   930, 933, 930, 929, 0, 0, 931, 930, 929, 932, 0, 933, 930, 931, 932, 934, 932, 931, 933, 934,
   932, 0, 933, 931, 0, 934, 932, 935, 933, 0, 936, 935, 936, 931, 936, 934, 932, 935, 933, 0,
   936, 938, 934, 938, 0, 935, 934, 935, 938, 0, 936, 0, 934, 938, 935, 0, 937, 936, 935, 936,
   937, 936, 934, 0, 935, 0, 937, 936, 938, 0, 938, 937, 935, 0, 935, 938, 937, 936, 0, 939,
   938, 939, 941, 937, 941, 940, 939, 937, 0, 941, 940, 939, 940, 937, 941, 0, 0, 940, 937, 0,
   0, 0, 940, 937, 0, 0, 939, 0, 939, 941, 0, 941, 940, 939, 0, 0, 941, 940, 939, 940,
   942, 941, 942, 943, 940, 943, 944, 942, 944, 940, 943, 943, 942, 944, 945, 943, 945, 0, 944, 0,
   0, 945, 0, 0, 0, 0, 945, 942, 0, 942, 943, 0, 943, 944, 942, 944, 0, 943, 943, 942,
   944, 945, 943, 945, 946, 944, 946, 0, 945, 0, 947, 946, 946, 945, 947, 948, 946, 948, 0, 0,
   947, 0, 948, 0, 0, 948, 0, 948, 0, 0, 947, 946, 0, 946, 0, 0, 0, 947, 946, 946,
   0, 947, 948, 946, 948, 0, 949, 947, 949, 948, 0, 0, 948, 949, 948, 0, 0, 947, 949, 950,
   951, 950, 951, 0, 0, 0, 950, 951, 0, 0, 0, 950, 951, 949, 0, 949, 0, 0, 0, 0,
   949, 0, 952, 0, 0, 949, 950, 951, 950, 951, 952, 0, 952, 950, 951, 0, 0, 952, 950, 951,
   0, 953, 952, 953, 954, 0, 954, 0, 953, 952, 0, 954, 0, 953, 0, 0, 954, 952, 0, 952,
   0, 0, 955, 0, 952, 0, 955, 0, 953, 952, 953, 954, 955, 954, 956, 953, 956, 957, 954, 0,
   953, 956, 955, 954, 0, 0, 956, 0, 957, 955, 957, 0, 0, 955, 0, 957, 0, 0, 0, 955,
   957, 956, 0, 956, 957, 0, 0, 0, 956, 955, 0, 0, 958, 956, 958, 957, 0, 957, 0, 958,
   958, 960, 957, 960, 958, 0, 959, 957, 960, 960, 959, 0, 959, 960, 0, 0, 0, 959, 0, 958,
   0, 958, 959, 0, 0, 0, 958, 958, 960, 0, 960, 958, 0, 959, 0, 960, 960, 959, 0, 959,
   960, 961, 0, 961, 959, 962, 963, 962, 961, 959, 963, 0, 962, 961, 0, 0, 963, 962, 0, 0,
   0, 964, 0, 0, 0, 964, 963, 0, 961, 0, 961, 964, 962, 963, 962, 961, 964, 963, 0, 962,
   961, 964, 0, 963, 962, 965, 965, 966, 964, 0, 965, 966, 964, 963, 0, 0, 965, 966, 964, 0,
   966, 0, 0, 964, 0, 0, 965, 966, 964, 0, 0, 0, 965, 965, 966, 967, 968, 965, 966, 967,
   968, 0, 0, 965, 966, 967, 968, 966, 967, 0, 0, 0, 0, 965, 966, 967, 968, 0, 0, 0,
   969, 970, 967, 968, 969, 970, 967, 968, 0, 0, 969, 970, 967, 968, 971, 967, 0, 0, 971, 0,
   969, 970, 967, 968, 971, 973, 972, 969, 970, 973, 972, 969, 970, 973, 971, 0, 972, 969, 970, 973,
   0, 971, 0, 0, 0, 971, 972, 969, 970, 973, 974, 971, 973, 972, 974, 976, 973, 972, 974, 976,
   973, 971, 0, 972, 974, 976, 973, 975, 975, 0, 976, 0, 975, 972, 974, 976, 973, 974, 975, 0,
   977, 974, 976, 978, 977, 974, 976, 978, 975, 0, 977, 974, 976, 978, 975, 975, 0, 976, 0, 975,
   977, 974, 976, 978, 0, 975, 0, 977, 979, 979, 978, 977, 0, 979, 978, 975, 0, 977, 980, 979,
   978, 981, 980, 981, 0, 0, 980, 977, 981, 979, 978, 0, 980, 981, 0, 979, 979, 0, 0, 0,
   979, 0, 980, 0, 0, 980, 979, 0, 981, 980, 981, 0, 0, 980, 0, 981, 979, 0, 0, 980,
   981, 982, 0, 982, 983, 0, 983, 982, 982, 980, 0, 983, 983, 982, 984, 0, 983, 986, 0, 986,
   0, 0, 0, 0, 986, 984, 0, 984, 982, 986, 982, 983, 984, 983, 982, 982, 0, 984, 983, 983,
   982, 984, 985, 983, 986, 0, 986, 0, 0, 0, 0, 986, 984, 985, 984, 985, 986, 0, 0, 984,
   985, 987, 0, 987, 984, 985, 988, 0, 987, 985, 988, 990, 0, 987, 0, 990, 988, 0, 989, 989,
   985, 990, 985, 989, 0, 0, 988, 985, 987, 989, 987, 990, 985, 988, 0, 987, 0, 988, 990, 989,
   987, 0, 990, 988, 0, 989, 989, 991, 990, 0, 989, 991, 992, 988, 992, 0, 989, 991, 990, 992,
   0, 0, 993, 0, 992, 0, 989, 991, 0, 0, 0, 0, 0, 993, 991, 993, 0, 0, 991, 992,
   993, 992, 0, 0, 991, 993, 992, 0, 994, 993, 0, 992, 0, 0, 991, 0, 995, 0, 995, 994,
   993, 994, 993, 995, 0, 0, 994, 993, 995, 0, 0, 994, 993, 0, 0, 994, 0, 996, 0, 996,
   0, 0, 0, 995, 996, 995, 994, 1073, 994, 996, 995, 1073, 1074, 994, 0, 995, 1074, 1073, 994, 0,
   0, 1075, 1074, 1075, 996, 0, 996, 1073, 1075, 0, 0, 996, 1074, 1075, 1073, 1076, 996, 1076, 1073, 1074,
   0, 0, 1076, 1074, 1073, 0, 0, 1076, 1075, 1074, 1075, 1077, 0, 1077, 1073, 1075, 0, 1078, 1077, 1074,
   1075, 1078, 1076, 1077, 1076, 0, 1079, 1078, 0, 1076, 1079, 0, 0, 0, 1076, 0, 1079, 1078, 1077, 0,
   1077, 1079, 0, 0, 1078, 1077, 1079, 0, 1078, 1080, 1077, 1080, 0, 1079, 1078, 0, 1080, 1079, 1081, 0,
   1081, 1080, 0, 1079, 1078, 1081, 0, 1082, 1079, 1082, 1081, 0, 0, 1079, 1082, 0, 1080, 0, 1080, 1082,
   0, 0, 0, 1080, 0, 1081, 0, 1081, 1080, 0, 0, 1083, 1081, 1083, 1082, 0, 1082, 1081, 1083, 0,
   1084, 1082, 1084, 1083, 0, 0, 1082, 1084, 1084, 1085, 1085, 1085, 1084, 0, 0, 0, 1085, 0, 1083, 0,
   1083, 1085, 0, 0, 0, 1083, 0, 1084, 0, 1084, 1083, 1086, 0, 0, 1084, 1084, 1085, 1085, 1085, 1084,
   1086, 0, 1086, 1085, 1087, 0, 1087, 1086, 1085, 0, 0, 1087, 1086, 1088, 0, 1088, 1087, 0, 1086, 0,
   1088, 1088, 0, 0, 0, 1088, 0, 1086, 0, 1086, 0, 1087, 0, 1087, 1086, 0, 0, 0, 1087, 1086,
   1088, 0, 1088, 1087, 1089, 1090, 1089, 1088, 1088, 0, 0, 1089, 1088, 0, 0, 1090, 1089, 1090, 1091, 0,
   1091, 0, 1090, 0, 0, 1091, 0, 1090, 0, 0, 1091, 1089, 1090, 1089, 0, 0, 0, 1092, 1089, 0,
   0, 0, 1090, 1089, 1090, 1091, 1092, 1091, 1092, 1090, 0, 0, 1091, 1092, 1090, 0, 0, 1091, 1092, 1093,
   1094, 1093, 1094, 0, 1092, 0, 1093, 1094, 0, 0, 0, 1093, 1094, 1092, 0, 1092, 0, 0, 0, 0,
   1092, 0, 0, 0, 0, 1092, 1093, 1094, 1093, 1094, 1095, 0, 1095, 1093, 1094, 0, 1097, 1095, 1093, 1094,
   1097, 1096, 1095, 1096, 0, 1098, 1097, 0, 1096, 1098, 0, 0, 0, 1096, 0, 1098, 1097, 1095, 0, 1095,
   0, 0, 0, 1097, 1095, 1098, 0, 1097, 1096, 1095, 1096, 0, 1098, 1097, 0, 1096, 1098, 1099, 0, 1099,
   1096, 1101, 1098, 1097, 1099, 1101, 1100, 0, 1100, 1099, 0, 1101, 1098, 1100, 1100, 1102, 0, 1102, 1100, 0,
   0, 1101, 1102, 0, 1099, 0, 1099, 1102, 1101, 0, 0, 1099, 1101, 1100, 0, 1100, 1099, 0, 1101, 0,
   1100, 1100, 1102, 0, 1102, 1100, 0, 0, 1101, 1102, 1103, 1104, 1103, 1104, 1102, 0, 0, 1103, 1104, 1105,
   0, 1105, 1103, 1104, 0, 0, 1105, 0, 0, 0, 0, 1105, 0, 0, 0, 0, 0, 1103, 1104, 1103,
   1104, 0, 0, 0, 1103, 1104, 1105, 0, 1105, 1103, 1104, 0, 1106, 1105, 1106, 1107, 0, 1107, 1105, 1106,
   0, 1108, 1107, 1108, 1106, 0, 0, 1107, 1108, 0, 0, 0, 0, 1108, 0, 0, 0, 0, 0, 1106,
   0, 1106, 1107, 0, 1107, 0, 1106, 0, 1108, 1107, 1108, 1106, 0, 0, 1107, 1108, 1109, 1110, 1109, 0,
   1108, 1110, 1109, 1109, 0, 0, 0, 1110, 1109, 0, 0, 1112, 1111, 0, 0, 1112, 1111, 1110, 0, 0,
   1111, 1112, 0, 1109, 1110, 1109, 1111, 0, 1110, 1109, 1109, 1112, 0, 0, 1110, 1109, 1111, 0, 1112, 1111,
   0, 1113, 1112, 1111, 1110, 1113, 0, 1111, 1112, 0, 1114, 1113, 1114, 1111, 0, 0, 0, 1114, 1112, 0,
   0, 1113, 1114, 1111, 1115, 0, 1115, 0, 1113, 0, 0, 1115, 1113, 1116, 0, 1116, 1115, 1114, 1113, 1114,
   1116, 0, 0, 0, 1114, 1116, 0, 0, 1113, 1114, 0, 1115, 1117, 1115, 1117, 1118, 0, 0, 1115, 1117,
   1116, 0, 1116, 1115, 1117, 0, 1118, 1116, 1118, 0, 0, 0, 1116, 1118, 0, 0, 0, 0, 1118, 1117,
   0, 1117, 1118, 0, 0, 1119, 1117, 1119, 0, 0, 0, 1117, 1119, 1118, 1120, 1118, 1120, 1119, 0, 0,
   1118, 1120, 1120, 0, 0, 1118, 1120, 1121, 0, 0, 0, 1121, 1119, 0, 1119, 0, 1122, 1121, 0, 1119,
   1122, 1120, 0, 1120, 1119, 0, 1122, 1121, 1120, 1120, 1125, 1123, 1125, 1120, 1121, 1123, 1122, 1125, 1121, 0,
   0, 1123, 1125, 1122, 1121, 1124, 0, 1122, 0, 1124, 0, 1123, 0, 1122, 1121, 1124, 0, 1125, 1123, 1125,
   0, 0, 1123, 1122, 1125, 1124, 0, 0, 1123, 1125, 1127, 0, 1124, 1126, 0, 1126, 1124, 0, 1123, 1127,
   1126, 1127, 1124, 0, 0, 1126, 1127, 0, 0, 0, 0, 1127, 1124, 0, 1128, 0, 0, 1127, 0, 0,
   1126, 0, 1126, 1128, 0, 1128, 1127, 1126, 1127, 0, 1128, 0, 1126, 1127, 0, 1128, 0, 1129, 1127, 1129,
   0, 1128, 0, 0, 1129, 0, 1130, 0, 1130, 1129, 1128, 0, 1128, 1130, 0, 0, 0, 1128, 1130, 0,
   0, 0, 1128, 0, 1129, 1131, 1129, 1131, 0, 0, 0, 1129, 1131, 1130, 0, 1130, 1129, 1131, 0, 1132,
   1130, 1132, 0, 0, 0, 1130, 1132, 0, 1133, 0, 1133, 1132, 1131, 0, 1131, 1133, 0, 0, 0, 1131,
   1133, 0, 0, 0, 1131, 0, 1132, 1134, 1132, 1134, 0, 0, 0, 1132, 1134, 1133, 0, 1133, 1132, 1134,
   0, 1135, 1133, 1135, 1136, 0, 0, 1133, 1135, 0, 0, 0, 0, 1135, 1134, 1136, 1134, 1136, 0, 0,
   0, 1134, 1136, 1137, 0, 0, 1134, 1136, 1135, 0, 1135, 1136, 0, 0, 1137, 1135, 1137, 0, 0, 0,
   1135, 1137, 1136, 0, 1136, 0, 1137, 0, 1138, 1136, 1137, 0, 0, 0, 1136, 0, 0, 1138, 1139, 1138,
   1139, 1137, 0, 1137, 1138, 1139, 1139, 0, 1137, 1138, 1139, 0, 0, 1137, 0, 1138, 0, 0, 0, 0,
   1140, 0, 0, 0, 1138, 1139, 1138, 1139, 1140, 0, 1140, 1138, 1139, 1139, 0, 1140, 1138, 1139, 0, 1141,
   1140, 1141, 1142, 0, 1142, 0, 1141, 1140, 0, 1142, 0, 1141, 0, 0, 1142, 1140, 0, 1140, 1143, 0,
   1143, 0, 1140, 0, 0, 1143, 1141, 1140, 1141, 1142, 1143, 1142, 1144, 1141, 1144, 0, 1142, 0, 1141, 1144,
   0, 1142, 0, 0, 1144, 1143, 0, 1143, 1145, 0, 1145, 1146, 1143, 1146, 1145, 1145, 0, 1143, 1146, 1144,
   1145, 1144, 1194, 1146, 1194, 0, 1144, 0, 0, 1194, 0, 1144, 0, 0, 1194, 1145, 0, 1145, 1146, 0,
   1146, 1145, 1145, 0, 0, 1146, 1195, 1145, 1195, 1194, 1146, 1194, 1196, 1195, 1196, 1197, 1194, 1197, 1195, 1196,
   0, 1194, 1197, 0, 1196, 0, 0, 1197, 1198, 0, 0, 0, 1198, 1195, 0, 1195, 0, 0, 1198, 1196,
   1195, 1196, 1197, 1199, 1197, 1195, 1196, 1199, 1198, 1197, 0, 1196, 1200, 1199, 1197, 1198, 1200, 1201, 1201, 1198,
   0, 0, 1200, 1199, 0, 1198, 0, 1202, 0, 0, 1199, 1202, 1200, 0, 1199, 1198, 0, 1202, 0, 1200,
   1199, 0, 1201, 1200, 0, 0, 1201, 1202, 0, 1200, 1199, 0, 1201, 1203, 1202, 0, 1204, 1203, 1202, 1200,
   1204, 1203, 1201, 0, 1202, 0, 1204, 1203, 0, 1201, 0, 1205, 0, 1201, 1202, 1205, 1204, 1203, 0, 1201,
   1203, 1205, 0, 1204, 1203, 0, 1206, 1204, 1203, 1201, 1206, 1205, 0, 1204, 1203, 1207, 1206, 0, 1205, 1207,
   0, 0, 1205, 1204, 1203, 1207, 1206, 1212, 1205, 1212, 1207, 0, 0, 1206, 1212, 1207, 0, 1206, 1205, 1212,
   1209, 0, 1207, 1206, 1209, 1208, 1207, 1208, 0, 1208, 1209, 0, 1207, 1206, 1212, 1208, 1212, 1207, 0, 1210,
   1209, 1212, 1207, 1210, 0, 1208, 1212, 1209, 1213, 1210, 1213, 1209, 1208, 0, 1208, 1213, 1208, 1209, 0, 1210,
   1213, 1211, 1208, 0, 0, 1211, 1210, 1209, 0, 0, 1210, 1211, 1208, 0, 0, 1213, 1210, 1213, 1214, 0,
   1214, 1211, 1213, 0, 0, 1214, 1210, 1213, 1211, 1216, 1214, 1216, 1211, 1215, 0, 0, 1216, 0, 1211, 0,
   0, 1216, 1215, 0, 1215, 1214, 0, 1214, 1211, 1215, 0, 0, 1214, 0, 1215, 0, 1216, 1214, 1216, 0,
   1215, 0, 0, 1216, 0, 1217, 0, 1217, 1216, 1215, 0, 1215, 1217, 1218, 0, 1218, 1215, 1217, 1220, 0,
   1218, 1215, 1220, 1221, 1219, 1218, 1219, 1221, 1220, 0, 1219, 1219, 1217, 1221, 1217, 0, 1219, 0, 1220, 1217,
   1218, 0, 1218, 1221, 1217, 1220, 0, 1218, 0, 1220, 1221, 1219, 1218, 1219, 1221, 1220, 0, 1219, 1219, 1222,
   1221, 1222, 1223, 1219, 1223, 1220, 1222, 0, 0, 1223, 1221, 1222, 0, 1224, 1223, 1224, 0, 0, 0, 0,
   1224, 0, 0, 1225, 0, 1224, 1222, 0, 1222, 1223, 0, 1223, 1225, 1222, 1225, 0, 1223, 0, 1222, 1225,
   1224, 1223, 1224, 0, 1225, 0, 1226, 1224, 1226, 0, 1225, 0, 1224, 1226, 1226, 0, 0, 0, 1226, 1225,
   0, 1225, 0, 0, 1227, 1227, 1225, 1227, 0, 0, 0, 1225, 1227, 1226, 0, 1226, 1228, 1227, 1228, 0,
   1226, 1226, 0, 1228, 0, 1226, 0, 0, 1228, 0, 0, 1227, 1227, 0, 1227, 1229, 0, 1229, 0, 1227,
   0, 0, 1229, 1228, 1227, 1228, 1230, 1229, 1230, 1231, 1228, 1231, 0, 1230, 1230, 1228, 1231, 0, 1230, 0,
   0, 1231, 1229, 0, 1229, 1232, 0, 1232, 0, 1229, 0, 1232, 1232, 1230, 1229, 1230, 1231, 1232, 1231, 0,
   1230, 1230, 0, 1231, 0, 1230, 0, 0, 1231, 1233, 1233, 1233, 1232, 0, 1232, 1234, 1233, 1234, 1232, 1232,
   0, 1233, 1234, 1234, 1232, 1235, 0, 1234, 0, 1235, 0, 0, 0, 0, 0, 1235, 1233, 1233, 1233, 0,
   0, 0, 1234, 1233, 1234, 1235, 0, 1236, 1233, 1234, 1234, 1236, 1235, 0, 1234, 1237, 1235, 1236, 0, 1237,
   1238, 0, 1235, 0, 1238, 1237, 0, 1236, 0, 0, 1238, 0, 1235, 1266, 1236, 1237, 0, 1266, 1236, 0,
   1238, 0, 1237, 1266, 1236, 1264, 1237, 1238, 0, 1264, 0, 1238, 1237, 1266, 1236, 1264, 0, 1238, 1264, 1267,
   1266, 0, 1237, 1267, 1266, 1264, 0, 1238, 0, 1267, 1266, 1268, 1264, 1269, 1267, 1268, 1264, 1269, 0, 1267,
   1266, 1268, 1264, 1269, 0, 1264, 1267, 0, 0, 0, 1267, 1268, 1264, 1269, 0, 1270, 1267, 0, 1268, 1270,
   1269, 1267, 1268, 0, 1269, 1270, 1267, 1271, 1268, 1271, 1269, 1271, 0, 0, 0, 1270, 0, 1271, 1268, 0,
   1269, 0, 1270, 0, 0, 1272, 1270, 1271, 0, 1272, 0, 0, 1270, 1273, 1271, 1272, 1271, 1273, 1271, 0,
   1272, 0, 1270, 1273, 1271, 1272, 0, 0, 0, 0, 0, 1274, 1272, 1273, 1271, 1274, 1272, 0, 0, 0,
   1273, 1274, 1272, 0, 1273, 0, 0, 1272, 0, 0, 1273, 1274, 1272, 1275, 0, 0, 0, 1275, 1274, 0,
   1273, 0, 1274, 1275, 1277, 1276, 1275, 1276, 1274, 1277, 0, 1277, 1276, 1275, 0, 1278, 1277, 1276, 1274, 1278,
   1275, 1277, 0, 0, 1275, 1278, 0, 0, 0, 0, 1275, 1277, 1276, 1275, 1276, 1278, 1277, 1279, 1277, 1276,
   1275, 1279, 1278, 1277, 1276, 1280, 1278, 1279, 1277, 1280, 1281, 0, 1278, 0, 1281, 1280, 0, 1279, 0, 1282,
   1281, 0, 1278, 1282, 1279, 1280, 0, 0, 1279, 1282, 1281, 0, 1280, 0, 1279, 0, 1280, 1281, 0, 1282,
   0, 1281, 1280, 0, 1279, 0, 1282, 1281, 0, 1283, 1282, 1284, 1280, 1283, 1285, 1284, 1282, 1281, 1285, 1283,
   1283, 1284, 1286, 1286, 1285, 0, 1282, 1286, 0, 1283, 0, 1284, 0, 1286, 1285, 0, 1283, 0, 1284, 0,
   1283, 1285, 1284, 1286, 0, 1285, 1283, 1283, 1284, 1286, 1286, 1285, 1302, 1302, 1286, 1304, 1283, 0, 1284, 1304,
   1286, 1285, 0, 1305, 1306, 1304, 0, 1305, 1306, 0, 1286, 0, 0, 1305, 1306, 1304, 0, 1302, 0, 0,
   0, 1302, 1304, 1305, 1306, 0, 1304, 1302, 0, 0, 1305, 1306, 1304, 0, 1305, 1306, 0, 1302, 0, 0,
   1305, 1306, 1304, 0, 1302, 1307, 0, 1307, 1302, 0, 1305, 1306, 1307, 1308, 1302, 1308, 1309, 1307, 1309, 1310,
   1308, 1310, 0, 1309, 1302, 1308, 1310, 0, 1309, 0, 0, 1310, 1307, 0, 1307, 0, 0, 0, 0, 1307,
   1308, 0, 1308, 1309, 1307, 1309, 1310, 1308, 1310, 1311, 1309, 1311, 1308, 1310, 0, 1309, 1311, 1312, 1310, 1312,
   0, 1311, 1313, 0, 1312, 0, 1313, 1314, 0, 1312, 1325, 1314, 1313, 0, 1325, 1326, 1311, 1314, 1311, 1326,
   1325, 0, 1313, 1311, 1312, 1326, 1312, 1314, 1311, 1313, 1325, 1312, 0, 1313, 1314, 1326, 1312, 1325, 1314, 1313,
   0, 1325, 1326, 0, 1314, 0, 1326, 1325, 0, 1313, 0, 1327, 1326, 0, 1314, 1327, 1328, 1325, 1328, 0,
   0, 1327, 1326, 1328, 0, 1336, 0, 1336, 1328, 0, 0, 1327, 1336, 0, 0, 0, 0, 1336, 1327, 0,
   0, 0, 1327, 1328, 0, 1328, 0, 0, 1327, 0, 1328, 0, 1336, 0, 1336, 1328, 0, 0, 1327, 1336,
   0, 0, 0, 0, 1336, 1368, 1368, 1368, 1368, 1368, 1369, 0, 0, 1369, 1369, 1371, 1371, 1371, 0, 1371,
   1372, 0, 1372, 1372, 1372, 1373, 0, 1373, 1373, 1373, 1374, 0, 1374, 1374, 1374, 1367, 1367, 1367, 1367, 1367,
   1367, 1367, 1367, 1367, 1367, 1367, 1367, 1367, 1367, 1367, 1367, 1367, 1367, 1367, 1367, 1367, 1367, 1367, 1367, 1367,
   1367, 1367, 1367, 1367, 1367, 1367, 1367, 1367, 1367, 1367, 1367, 1367, 1367, 1367, 1367, 1367, 1367, 1367, 1367, 1367,
   1367, 1367, 1367, 1367, 1367, 1367, 1367, 1367, 1367, 1367, 1367, 1367, 1367, 1367, 1367, 1367, 1367, 1367, 1367, 1367,
   1367, 1367, 1367, 1367, 1367, 1367, 1367, 1367, 1367, 1367, 1367, 1367]

end Verif.Lex
