import Verif.Parser.Tables

/-!
# The lexer arrays, verbatim

Generated by `tools/gen_tables.py` from `/repo/Narsese/Parser/narsese.h`; do not edit.
The four arrays of the lexer as they stand in the header, and the proof that `dfaTable` is exactly
what `_parser::lex` finds in them.
-/

namespace Cnars.Parser.Raw

/-- `dfa_idx` (narsese.h:631-703), flattened row by row. -/
def dfaIdx : List (List Nat) :=
  [[0, 38, 40, 42, 44, 46, 48, 50, 52, 66, 68, 70, 72, 82, 86, 98, 104],
   [114, 196, 198, 200, 202, 204, 206, 208, 210, 212, 214, 216, 220, 228, 230, 232, 234, 236,
    238, 240, 244, 254, 256, 258, 260, 270, 272, 278, 296, 302, 304, 306, 308, 310, 312, 314,
    316, 320, 326, 330, 332, 334, 336, 338, 340, 342, 344, 346, 348, 350, 352, 354, 356, 358,
    360, 370, 386, 392, 402, 418, 422, 434, 448, 454, 468, 472, 488, 492, 496, 500, 504, 508,
    512, 516, 520, 524, 528, 534, 540, 550],
   [556, 588, 590, 592, 594, 596, 598, 600, 614, 616, 618, 620, 624, 634, 646, 652],
   [662, 692, 694, 696, 698, 712, 714, 716, 718, 720, 722, 726, 736, 748, 754],
   [764, 806, 808, 810, 812, 814, 816, 818, 834, 836, 838, 840, 844, 854, 870, 874, 878, 892,
    896, 908, 914],
   [924, 932, 936, 940, 944, 948],
   [952, 962, 964, 966, 968],
   [970, 974],
   [976, 980],
   [982, 986],
   [988, 992],
   [994, 1036, 1038, 1040, 1042, 1044, 1046, 1048, 1050, 1052, 1054, 1068, 1070, 1072, 1074,
    1084, 1088, 1100, 1106],
   [1116, 1170, 1172, 1174, 1176, 1178, 1180, 1182, 1184, 1186, 1188, 1192, 1194, 1196, 1198,
    1202, 1210, 1212, 1226, 1228, 1230, 1232, 1234, 1236, 1238, 1240, 1250, 1262, 1268],
   [1278, 1316, 1318, 1320, 1322, 1324, 1326, 1328, 1332, 1334, 1338, 1340, 1342, 1344, 1346,
    1354, 1356, 1358, 1360, 1362, 1364, 1366, 1368, 1370, 1372, 1374, 1376, 1378, 1380, 1382,
    1384, 1386, 1388, 1392, 1402, 1412, 1418, 1422, 1426, 1430, 1434, 1438, 1442, 1446, 1450],
   [1456, 1478, 1492, 1494, 1496, 1506, 1518, 1524],
   [1534, 1544, 1548, 1550],
   [1554, 1590, 1592, 1594, 1596, 1610, 1612, 1614, 1616, 1618, 1620, 1622, 1624, 1626, 1630,
    1640, 1652, 1658],
   [1668, 1712, 1714, 1716, 1718, 1720, 1722, 1724, 1726, 1728, 1730, 1732, 1746, 1748, 1750,
    1752, 1762, 1766, 1778, 1784],
   [1794, 1836, 1838, 1840, 1842, 1844, 1846, 1848, 1850, 1852, 1856, 1858, 1862, 1870, 1872,
    1874, 1876, 1878, 1880, 1882, 1884, 1886, 1888, 1890, 1892, 1894, 1896, 1898, 1900, 1902,
    1904, 1906, 1908, 1910, 1914, 1924, 1934, 1940, 1944, 1948, 1952, 1956, 1960, 1964, 1968,
    1972],
   [1978, 2026, 2028, 2032, 2034, 2036, 2038, 2040, 2054, 2056, 2058, 2060, 2064, 2066, 2068,
    2070, 2078, 2080, 2082, 2084, 2086, 2088, 2090, 2092, 2094, 2104, 2116, 2122],
   [2132, 2148, 2162, 2164, 2174, 2186, 2192],
   [2202, 2208, 2212],
   [2216, 2226, 2228, 2230],
   [2232, 2238, 2240],
   [2242, 2252, 2254, 2256, 2258, 2260, 2262, 2264, 2274, 2278, 2282],
   [2286, 2292, 2294, 2296, 2298, 2300, 2302, 2312, 2316, 2320],
   [2324, 2348, 2362, 2364, 2366, 2368, 2370, 2372, 2374, 2384, 2394, 2398, 2402, 2406, 2418,
    2424],
   [2434, 2438, 2440, 2442, 2444, 2446, 2456, 2460, 2464],
   [2468, 2476, 2478, 2480, 2482, 2484, 2486, 2496, 2500, 2504],
   [2508, 2514, 2516],
   [2518, 2524, 2526],
   [2528, 2548, 2552, 2556, 2558, 2560, 2562, 2570, 2572, 2574, 2576, 2578, 2580, 2582, 2584,
    2586, 2588, 2590, 2592, 2594, 2596, 2598, 2600, 2602, 2606, 2616, 2626, 2632, 2636, 2640,
    2644, 2648, 2652, 2656, 2660, 2664],
   [2670, 2692, 2696, 2698, 2702, 2704, 2706, 2708, 2716, 2718, 2720, 2722, 2724, 2726, 2728,
    2730, 2732, 2734, 2736, 2738, 2740, 2742, 2744, 2746, 2748, 2752, 2762, 2772, 2778, 2782,
    2786, 2790, 2794, 2798, 2802, 2806, 2810],
   [2816, 2854, 2856, 2858, 2860, 2874, 2876, 2878, 2880, 2882, 2884, 2886, 2888, 2890, 2892,
    2896, 2906, 2918, 2924],
   [2934, 2938],
   [2940, 2948, 2950, 2952],
   [2954, 2960, 2962],
   [2964, 3008, 3010, 3012, 3014, 3016, 3018, 3020, 3022, 3024, 3026, 3028, 3042, 3044, 3046,
    3048, 3058, 3062, 3074, 3080],
   [3090, 3098, 3100],
   [3102, 3112, 3114, 3116, 3118, 3120, 3122, 3124, 3126, 3128, 3130, 3132, 3134, 3136, 3140,
    3150, 3160, 3166, 3170, 3174, 3178, 3182, 3186, 3190, 3194, 3198, 3204],
   [3208, 3250, 3252, 3254, 3256, 3258, 3260, 3262, 3264, 3268, 3270, 3274, 3282, 3284, 3286,
    3288, 3290, 3292, 3294, 3296, 3298, 3300, 3302, 3304, 3306, 3308, 3310, 3312, 3314, 3316,
    3318, 3320, 3322, 3324, 3328, 3338, 3348, 3354, 3358, 3362, 3366, 3370, 3374, 3378, 3382,
    3386],
   [3392, 3406, 3414, 3420, 3422, 3428, 3432, 3436, 3440, 3446, 3450],
   [3456, 3460],
   [3462, 3468, 3474, 3478, 3482],
   [3488, 3492],
   [3494, 3502, 3504],
   [3506, 3512, 3514],
   [3516, 3520],
   [3522, 3526],
   [3528, 3540, 3542, 3544, 3546, 3548],
   [3550, 3562, 3564, 3566, 3568, 3570, 3572],
   [3576, 3588, 3590, 3592, 3594, 3596, 3598],
   [3602, 3614, 3616, 3618, 3620, 3622, 3624],
   [3628, 3640, 3642, 3644, 3646, 3648, 3650],
   [3654, 3666, 3668, 3670, 3672, 3674],
   [3676, 3688, 3690, 3692, 3694, 3696],
   [3698, 3702],
   [3704, 3744, 3746, 3748, 3750, 3752, 3754, 3756, 3758, 3762, 3764, 3768, 3776, 3778, 3780,
    3782, 3784, 3786, 3788, 3790, 3792, 3794, 3796, 3798, 3800, 3802, 3804, 3806, 3808, 3810,
    3812, 3814, 3816, 3820, 3830, 3840, 3846, 3850, 3854, 3858, 3862, 3866, 3870, 3874, 3878],
   [3884, 3896, 3900, 3902, 3906, 3910, 3914],
   [3918, 3926, 3930, 3934, 3938, 3942],
   [3946, 3950],
   [3952, 3962, 3966, 3968, 3970, 3978, 3980, 3982, 3984],
   [3986, 3996, 4000, 4002, 4004, 4012, 4014, 4016, 4018],
   [4020, 4024],
   [4026, 4034, 4038, 4042, 4046, 4050],
   [4054, 4064, 4066, 4068],
   [4070, 4076, 4078],
   [4080, 4088, 4090],
   [4092, 4098, 4104, 4108, 4112],
   [4118, 4122, 4128]]

/-- Elements 0 to 199 of the array. -/
def dfaChars0 : List Int :=
  [94, 94, 91, 91, 123, 123, 0, 8, 10, 31, 39, 39, 48, 57, 65, 90, 95, 122, 127, 65535, 60, 60,
   45, 45, 43, 43, 40, 40, 36, 36, 34, 34, 32, 32, 9, 9, -1, -1, -1, -1, -1, -1, -1, -1, -1, -1,
   -1, -1, -1, -1, -1, -1, 0, 31, 39, 39, 48, 57, 65, 90, 95, 122, 127, 65535, -1, -1, -1, -1,
   -1, -1, -1, -1, 34, 34, 0, 33, 35, 91, 93, 65535, -1, -1, 45, 45, -1, -1, 0, 33, 35, 91, 93,
   65535, 92, 92, 34, 34, -1, -1, 34, 34, 92, 92, -1, -1, 0, 33, 35, 91, 93, 65535, 34, 34, -1,
   -1, 126, 126, 124, 124, 125, 125, 123, 123, 0, 8, 10, 31, 39, 39, 65, 90, 95, 122, 127, 65535,
   94, 94, 93, 93, 92, 92, 91, 91, 64, 64, 63, 63, 62, 62, 61, 61, 60, 60, 59, 59, 58, 58, 50,
   57, 49, 49, 48, 48, 47, 47, 46, 46, 45, 45, 44, 44, 43, 43, 42, 42, 41, 41, 40, 40, 38, 38,
   37, 37, 36, 36, 35, 35, 34, 34, 33, 33, 32, 32, 9, 9, -1, -1, -1, -1, -1, -1]

/-- Elements 200 to 399 of the array. -/
def dfaChars1 : List Int :=
  [-1, -1, -1, -1, -1, -1, -1, -1, -1, -1, -1, -1, -1, -1, -1, -1, 124, 124, -1, -1, 124, 124,
   47, 47, 38, 38, -1, -1, -1, -1, -1, -1, -1, -1, -1, -1, -1, -1, -1, -1, 45, 45, -1, -1, 124,
   124, 61, 61, 47, 47, 45, 45, -1, -1, -1, -1, -1, -1, -1, -1, 124, 124, 92, 92, 47, 47, 33, 33,
   -1, -1, -1, -1, 48, 57, 45, 45, -1, -1, 49, 57, 0, 31, 39, 39, 65, 90, 95, 122, 127, 65535,
   48, 48, 46, 46, -1, -1, 49, 57, 48, 48, -1, -1, -1, -1, -1, -1, -1, -1, -1, -1, -1, -1, -1,
   -1, -1, -1, 48, 57, -1, -1, 93, 93, 62, 62, -1, -1, 48, 48, -1, -1, -1, -1, -1, -1, -1, -1,
   -1, -1, -1, -1, -1, -1, -1, -1, -1, -1, -1, -1, -1, -1, -1, -1, -1, -1, -1, -1, -1, -1, -1,
   -1, 34, 34, 0, 33, 35, 91, 93, 65535, -1, -1, 0, 31, 39, 39, 65, 90, 95, 122, 127, 65535, 48,
   57, 46, 46, -1, -1, 49, 57, 48, 48, -1, -1, 124, 124, 92, 92, 61, 61, 47, 47]

/-- Elements 400 to 599 of the array. -/
def dfaChars2 : List Int :=
  [-1, -1, 0, 31, 39, 39, 65, 90, 95, 122, 127, 65535, 49, 57, 48, 48, -1, -1, 48, 57, -1, -1, 0,
   33, 35, 91, 93, 65535, 92, 92, 34, 34, -1, -1, 0, 31, 39, 39, 48, 57, 65, 90, 95, 122, 127,
   65535, -1, -1, 93, 93, 45, 45, -1, -1, 0, 31, 39, 39, 65, 90, 95, 122, 127, 65535, 48, 57, -1,
   -1, 62, 62, -1, -1, 0, 31, 39, 39, 65, 90, 95, 122, 127, 65535, 49, 57, 48, 48, -1, -1, 62,
   62, -1, -1, 62, 62, -1, -1, 62, 62, -1, -1, 62, 62, -1, -1, 62, 62, -1, -1, 62, 62, -1, -1,
   62, 62, -1, -1, 58, 58, -1, -1, 58, 58, -1, -1, 58, 58, -1, -1, 49, 57, 48, 48, -1, -1, 34,
   34, 92, 92, -1, -1, 0, 33, 35, 91, 93, 65535, 34, 34, -1, -1, 49, 57, 48, 48, -1, -1, 94, 94,
   91, 91, 123, 123, 0, 31, 39, 39, 48, 57, 65, 90, 95, 122, 127, 65535, 60, 60, 45, 45, 43, 43,
   40, 40, 36, 36, 34, 34, -1, -1, -1, -1, -1, -1, -1, -1, -1, -1, -1, -1, -1, -1]

/-- Elements 600 to 799 of the array. -/
def dfaChars3 : List Int :=
  [0, 31, 39, 39, 48, 57, 65, 90, 95, 122, 127, 65535, -1, -1, -1, -1, -1, -1, -1, -1, 45, 45,
   -1, -1, 34, 34, 0, 33, 35, 91, 93, 65535, -1, -1, 0, 33, 35, 91, 93, 65535, 92, 92, 34, 34,
   -1, -1, 34, 34, 92, 92, -1, -1, 0, 33, 35, 91, 93, 65535, 34, 34, -1, -1, 0, 31, 39, 39, 48,
   57, 65, 90, 95, 122, 127, 65535, 123, 123, 94, 94, 91, 91, 60, 60, 45, 45, 43, 43, 40, 40, 34,
   34, -1, -1, -1, -1, -1, -1, -1, -1, 0, 31, 39, 39, 48, 57, 65, 90, 95, 122, 127, 65535, -1,
   -1, -1, -1, -1, -1, -1, -1, -1, -1, -1, -1, 45, 45, -1, -1, 34, 34, 0, 33, 35, 91, 93, 65535,
   -1, -1, 0, 33, 35, 91, 93, 65535, 92, 92, 34, 34, -1, -1, 34, 34, 92, 92, -1, -1, 0, 33, 35,
   91, 93, 65535, 34, 34, -1, -1, 60, 60, 94, 94, 91, 91, 123, 123, 45, 45, 48, 48, 49, 49, 46,
   46, 0, 8, 10, 31, 39, 39, 50, 57, 65, 90, 95, 122, 127, 65535, 43, 43, 40, 40, 34, 34]

/-- Elements 800 to 999 of the array. -/
def dfaChars4 : List Int :=
  [32, 32, 9, 9, -1, -1, -1, -1, -1, -1, -1, -1, -1, -1, -1, -1, -1, -1, 0, 31, 39, 39, 48, 57,
   65, 90, 95, 122, 127, 65535, 46, 46, -1, -1, -1, -1, -1, -1, -1, -1, 48, 48, -1, -1, 34, 34,
   0, 33, 35, 91, 93, 65535, -1, -1, 0, 31, 39, 39, 48, 57, 65, 90, 95, 122, 127, 65535, 46, 46,
   -1, -1, 48, 57, -1, -1, 45, 45, -1, -1, 0, 31, 39, 39, 48, 57, 65, 90, 95, 122, 127, 65535,
   -1, -1, 48, 57, -1, -1, 0, 33, 35, 91, 93, 65535, 92, 92, 34, 34, -1, -1, 34, 34, 92, 92, -1,
   -1, 0, 33, 35, 91, 93, 65535, 34, 34, -1, -1, 49, 49, 48, 48, 46, 46, -1, -1, 46, 46, -1, -1,
   48, 57, -1, -1, 46, 46, -1, -1, 48, 48, -1, -1, 48, 57, -1, -1, 64, 64, 63, 63, 46, 46, 33,
   33, -1, -1, -1, -1, -1, -1, -1, -1, -1, -1, 46, 46, -1, -1, -1, -1, 63, 63, -1, -1, -1, -1,
   33, 33, -1, -1, -1, -1, 64, 64, -1, -1, -1, -1, 94, 94, 91, 91, 123, 123]

/-- Elements 1000 to 1199 of the array. -/
def dfaChars5 : List Int :=
  [0, 8, 10, 31, 39, 39, 48, 57, 65, 90, 95, 122, 127, 65535, 63, 63, 60, 60, 45, 45, 43, 43, 40,
   40, 36, 36, 35, 35, 34, 34, 32, 32, 9, 9, -1, -1, -1, -1, -1, -1, -1, -1, -1, -1, -1, -1, -1,
   -1, -1, -1, -1, -1, -1, -1, 0, 31, 39, 39, 48, 57, 65, 90, 95, 122, 127, 65535, -1, -1, -1,
   -1, -1, -1, -1, -1, 34, 34, 0, 33, 35, 91, 93, 65535, -1, -1, 45, 45, -1, -1, 0, 33, 35, 91,
   93, 65535, 92, 92, 34, 34, -1, -1, 34, 34, 92, 92, -1, -1, 0, 33, 35, 91, 93, 65535, 34, 34,
   -1, -1, 126, 126, 124, 124, 0, 8, 10, 31, 39, 39, 48, 57, 65, 90, 95, 122, 127, 65535, 123,
   123, 94, 94, 92, 92, 91, 91, 63, 63, 60, 60, 47, 47, 45, 45, 43, 43, 42, 42, 40, 40, 38, 38,
   36, 36, 35, 35, 34, 34, 32, 32, 9, 9, -1, -1, -1, -1, -1, -1, -1, -1, -1, -1, -1, -1, -1, -1,
   -1, -1, -1, -1, -1, -1, 45, 45, -1, -1, -1, -1, -1, -1, -1, -1, 124, 124]

/-- Elements 1200 to 1399 of the array. -/
def dfaChars6 : List Int :=
  [-1, -1, 124, 124, 47, 47, 38, 38, -1, -1, -1, -1, 0, 31, 39, 39, 48, 57, 65, 90, 95, 122, 127,
   65535, -1, -1, -1, -1, -1, -1, -1, -1, -1, -1, -1, -1, -1, -1, -1, -1, 34, 34, 0, 33, 35, 91,
   93, 65535, -1, -1, 0, 33, 35, 91, 93, 65535, 92, 92, 34, 34, -1, -1, 34, 34, 92, 92, -1, -1,
   0, 33, 35, 91, 93, 65535, 34, 34, -1, -1, 64, 64, 93, 93, 125, 125, 123, 123, 126, 126, 124,
   124, 63, 63, 62, 62, 61, 61, 60, 60, 46, 46, 45, 45, 44, 44, 42, 42, 41, 41, 40, 40, 38, 38,
   33, 33, -1, -1, -1, -1, -1, -1, -1, -1, -1, -1, -1, -1, -1, -1, 45, 45, -1, -1, -1, -1, 124,
   124, -1, -1, -1, -1, -1, -1, -1, -1, -1, -1, 124, 124, 47, 47, 38, 38, -1, -1, -1, -1, -1, -1,
   -1, -1, -1, -1, -1, -1, -1, -1, -1, -1, -1, -1, -1, -1, -1, -1, -1, -1, -1, -1, -1, -1, -1,
   -1, -1, -1, -1, -1, -1, -1, 45, 45, -1, -1, 124, 124, 92, 92, 61, 61, 47, 47]

/-- Elements 1400 to 1599 of the array. -/
def dfaChars7 : List Int :=
  [-1, -1, 124, 124, 61, 61, 47, 47, 45, 45, -1, -1, 93, 93, 45, 45, -1, -1, 62, 62, -1, -1, 62,
   62, -1, -1, 62, 62, -1, -1, 62, 62, -1, -1, 62, 62, -1, -1, 62, 62, -1, -1, 62, 62, -1, -1,
   62, 62, -1, -1, 93, 93, 62, 62, -1, -1, 34, 34, 32, 32, 9, 9, 0, 8, 10, 31, 39, 39, 48, 57,
   65, 90, 95, 122, 127, 65535, -1, -1, 0, 31, 39, 39, 48, 57, 65, 90, 95, 122, 127, 65535, -1,
   -1, -1, -1, -1, -1, 34, 34, 0, 33, 35, 91, 93, 65535, -1, -1, 0, 33, 35, 91, 93, 65535, 92,
   92, 34, 34, -1, -1, 34, 34, 92, 92, -1, -1, 0, 33, 35, 91, 93, 65535, 34, 34, -1, -1, 9, 9,
   32, 32, 48, 57, 45, 45, -1, -1, 48, 57, -1, -1, -1, -1, 48, 57, -1, -1, 0, 31, 39, 39, 48, 57,
   65, 90, 95, 122, 127, 65535, 123, 123, 94, 94, 91, 91, 63, 63, 60, 60, 45, 45, 43, 43, 40, 40,
   36, 36, 35, 35, 34, 34, -1, -1, -1, -1, -1, -1, -1, -1, 0, 31, 39, 39]

/-- Elements 1600 to 1799 of the array. -/
def dfaChars8 : List Int :=
  [48, 57, 65, 90, 95, 122, 127, 65535, -1, -1, -1, -1, -1, -1, -1, -1, -1, -1, -1, -1, -1, -1,
   -1, -1, -1, -1, 45, 45, -1, -1, 34, 34, 0, 33, 35, 91, 93, 65535, -1, -1, 0, 33, 35, 91, 93,
   65535, 92, 92, 34, 34, -1, -1, 34, 34, 92, 92, -1, -1, 0, 33, 35, 91, 93, 65535, 34, 34, -1,
   -1, 94, 94, 91, 91, 123, 123, 0, 8, 10, 31, 39, 39, 48, 57, 65, 90, 95, 122, 127, 65535, 63,
   63, 60, 60, 45, 45, 44, 44, 43, 43, 40, 40, 36, 36, 35, 35, 34, 34, 32, 32, 9, 9, -1, -1, -1,
   -1, -1, -1, -1, -1, -1, -1, -1, -1, -1, -1, -1, -1, -1, -1, -1, -1, -1, -1, 0, 31, 39, 39, 48,
   57, 65, 90, 95, 122, 127, 65535, -1, -1, -1, -1, -1, -1, -1, -1, 34, 34, 0, 33, 35, 91, 93,
   65535, -1, -1, 45, 45, -1, -1, 0, 33, 35, 91, 93, 65535, 92, 92, 34, 34, -1, -1, 34, 34, 92,
   92, -1, -1, 0, 33, 35, 91, 93, 65535, 34, 34, -1, -1, 64, 64, 93, 93, 125, 125]

/-- Elements 1800 to 1999 of the array. -/
def dfaChars9 : List Int :=
  [123, 123, 126, 126, 124, 124, 9, 9, 32, 32, 63, 63, 62, 62, 61, 61, 60, 60, 46, 46, 45, 45,
   44, 44, 42, 42, 41, 41, 40, 40, 38, 38, 33, 33, -1, -1, -1, -1, -1, -1, -1, -1, -1, -1, -1,
   -1, -1, -1, -1, -1, -1, -1, 45, 45, -1, -1, -1, -1, 124, 124, -1, -1, 124, 124, 47, 47, 38,
   38, -1, -1, -1, -1, -1, -1, -1, -1, -1, -1, -1, -1, -1, -1, -1, -1, -1, -1, -1, -1, -1, -1,
   -1, -1, -1, -1, -1, -1, -1, -1, -1, -1, -1, -1, -1, -1, -1, -1, -1, -1, -1, -1, 45, 45, -1,
   -1, 124, 124, 92, 92, 61, 61, 47, 47, -1, -1, 124, 124, 61, 61, 47, 47, 45, 45, -1, -1, 93,
   93, 45, 45, -1, -1, 62, 62, -1, -1, 62, 62, -1, -1, 62, 62, -1, -1, 62, 62, -1, -1, 62, 62,
   -1, -1, 62, 62, -1, -1, 62, 62, -1, -1, 62, 62, -1, -1, 93, 93, 62, 62, -1, -1, 126, 126, 0,
   31, 39, 39, 48, 57, 65, 90, 95, 122, 127, 65535, 124, 124, 123, 123, 94, 94, 92, 92]

/-- Elements 2000 to 2199 of the array. -/
def dfaChars10 : List Int :=
  [91, 91, 63, 63, 60, 60, 47, 47, 45, 45, 43, 43, 42, 42, 40, 40, 38, 38, 36, 36, 35, 35, 34,
   34, -1, -1, -1, -1, 124, 124, -1, -1, -1, -1, -1, -1, -1, -1, -1, -1, 0, 31, 39, 39, 48, 57,
   65, 90, 95, 122, 127, 65535, -1, -1, -1, -1, -1, -1, -1, -1, 45, 45, -1, -1, -1, -1, -1, -1,
   -1, -1, 124, 124, 47, 47, 38, 38, -1, -1, -1, -1, -1, -1, -1, -1, -1, -1, -1, -1, -1, -1, -1,
   -1, -1, -1, 34, 34, 0, 33, 35, 91, 93, 65535, -1, -1, 0, 33, 35, 91, 93, 65535, 92, 92, 34,
   34, -1, -1, 34, 34, 92, 92, -1, -1, 0, 33, 35, 91, 93, 65535, 34, 34, -1, -1, 0, 31, 39, 39,
   48, 57, 65, 90, 95, 122, 127, 65535, 34, 34, -1, -1, 0, 31, 39, 39, 48, 57, 65, 90, 95, 122,
   127, 65535, -1, -1, -1, -1, 34, 34, 0, 33, 35, 91, 93, 65535, -1, -1, 0, 33, 35, 91, 93,
   65535, 92, 92, 34, 34, -1, -1, 34, 34, 92, 92, -1, -1, 0, 33, 35, 91, 93, 65535, 34, 34]

/-- Elements 2200 to 2399 of the array. -/
def dfaChars11 : List Int :=
  [-1, -1, 48, 57, 45, 45, -1, -1, 48, 57, -1, -1, 48, 57, -1, -1, 59, 59, 36, 36, 9, 9, 32, 32,
   -1, -1, -1, -1, -1, -1, -1, -1, 59, 59, 36, 36, -1, -1, -1, -1, -1, -1, 58, 58, 37, 37, 9, 9,
   32, 32, -1, -1, -1, -1, -1, -1, -1, -1, -1, -1, -1, -1, -1, -1, 124, 124, 92, 92, 47, 47, 33,
   33, -1, -1, 58, 58, -1, -1, 58, 58, -1, -1, 58, 58, -1, -1, 58, 58, 37, 37, -1, -1, -1, -1,
   -1, -1, -1, -1, -1, -1, -1, -1, 124, 124, 92, 92, 47, 47, 33, 33, -1, -1, 58, 58, -1, -1, 58,
   58, -1, -1, 58, 58, -1, -1, 58, 58, 34, 34, 32, 32, 9, 9, 0, 8, 10, 31, 39, 39, 48, 57, 65,
   90, 95, 122, 127, 65535, -1, -1, 0, 31, 39, 39, 48, 57, 65, 90, 95, 122, 127, 65535, -1, -1,
   -1, -1, -1, -1, -1, -1, -1, -1, -1, -1, -1, -1, 124, 124, 92, 92, 47, 47, 33, 33, -1, -1, 34,
   34, 0, 33, 35, 91, 93, 65535, -1, -1, 58, 58, -1, -1, 58, 58]

/-- Elements 2400 to 2599 of the array. -/
def dfaChars12 : List Int :=
  [-1, -1, 58, 58, -1, -1, 0, 33, 35, 91, 93, 65535, 92, 92, 34, 34, -1, -1, 34, 34, 92, 92, -1,
   -1, 0, 33, 35, 91, 93, 65535, 34, 34, -1, -1, 58, 58, -1, -1, -1, -1, -1, -1, -1, -1, -1, -1,
   124, 124, 92, 92, 47, 47, 33, 33, -1, -1, 58, 58, -1, -1, 58, 58, -1, -1, 58, 58, -1, -1, 58,
   58, 9, 9, 32, 32, -1, -1, -1, -1, -1, -1, -1, -1, -1, -1, -1, -1, 124, 124, 92, 92, 47, 47,
   33, 33, -1, -1, 58, 58, -1, -1, 58, 58, -1, -1, 58, 58, -1, -1, 93, 93, 44, 44, -1, -1, -1,
   -1, -1, -1, 125, 125, 44, 44, -1, -1, -1, -1, -1, -1, 126, 126, 124, 124, 123, 123, 61, 61,
   60, 60, 45, 45, 44, 44, 42, 42, 38, 38, -1, -1, 124, 124, -1, -1, 45, 45, -1, -1, -1, -1, -1,
   -1, -1, -1, 124, 124, 47, 47, 38, 38, -1, -1, -1, -1, -1, -1, -1, -1, -1, -1, -1, -1, -1, -1,
   -1, -1, -1, -1, -1, -1, -1, -1, -1, -1, -1, -1, -1, -1, -1, -1, -1, -1]

/-- Elements 2600 to 2799 of the array. -/
def dfaChars13 : List Int :=
  [-1, -1, 45, 45, -1, -1, 124, 124, 92, 92, 61, 61, 47, 47, -1, -1, 124, 124, 61, 61, 47, 47,
   45, 45, -1, -1, 93, 93, 45, 45, -1, -1, 62, 62, -1, -1, 62, 62, -1, -1, 62, 62, -1, -1, 62,
   62, -1, -1, 62, 62, -1, -1, 62, 62, -1, -1, 62, 62, -1, -1, 62, 62, -1, -1, 93, 93, 62, 62,
   -1, -1, 126, 126, 124, 124, 123, 123, 61, 61, 60, 60, 45, 45, 44, 44, 42, 42, 41, 41, 38, 38,
   -1, -1, 45, 45, -1, -1, -1, -1, 124, 124, -1, -1, -1, -1, -1, -1, -1, -1, 124, 124, 47, 47,
   38, 38, -1, -1, -1, -1, -1, -1, -1, -1, -1, -1, -1, -1, -1, -1, -1, -1, -1, -1, -1, -1, -1,
   -1, -1, -1, -1, -1, -1, -1, -1, -1, -1, -1, -1, -1, 45, 45, -1, -1, 124, 124, 92, 92, 61, 61,
   47, 47, -1, -1, 124, 124, 61, 61, 47, 47, 45, 45, -1, -1, 93, 93, 45, 45, -1, -1, 62, 62, -1,
   -1, 62, 62, -1, -1, 62, 62, -1, -1, 62, 62, -1, -1, 62, 62, -1, -1, 62, 62]

/-- Elements 2800 to 2999 of the array. -/
def dfaChars14 : List Int :=
  [-1, -1, 62, 62, -1, -1, 62, 62, -1, -1, 93, 93, 62, 62, -1, -1, 0, 31, 39, 39, 48, 57, 65, 90,
   95, 122, 127, 65535, 123, 123, 94, 94, 91, 91, 63, 63, 60, 60, 45, 45, 44, 44, 43, 43, 40, 40,
   36, 36, 35, 35, 34, 34, -1, -1, -1, -1, -1, -1, -1, -1, 0, 31, 39, 39, 48, 57, 65, 90, 95,
   122, 127, 65535, -1, -1, -1, -1, -1, -1, -1, -1, -1, -1, -1, -1, -1, -1, -1, -1, -1, -1, -1,
   -1, 45, 45, -1, -1, 34, 34, 0, 33, 35, 91, 93, 65535, -1, -1, 0, 33, 35, 91, 93, 65535, 92,
   92, 34, 34, -1, -1, 34, 34, 92, 92, -1, -1, 0, 33, 35, 91, 93, 65535, 34, 34, -1, -1, 44, 44,
   -1, -1, -1, -1, 126, 126, 45, 45, 41, 41, -1, -1, -1, -1, -1, -1, -1, -1, 126, 126, 45, 45,
   -1, -1, -1, -1, -1, -1, 94, 94, 91, 91, 123, 123, 0, 8, 10, 31, 39, 39, 48, 57, 65, 90, 95,
   122, 127, 65535, 63, 63, 60, 60, 45, 45, 44, 44, 43, 43, 40, 40, 36, 36, 35, 35]

/-- Elements 3000 to 3199 of the array. -/
def dfaChars15 : List Int :=
  [34, 34, 32, 32, 9, 9, -1, -1, -1, -1, -1, -1, -1, -1, -1, -1, -1, -1, -1, -1, -1, -1, -1, -1,
   -1, -1, -1, -1, 0, 31, 39, 39, 48, 57, 65, 90, 95, 122, 127, 65535, -1, -1, -1, -1, -1, -1,
   -1, -1, 34, 34, 0, 33, 35, 91, 93, 65535, -1, -1, 45, 45, -1, -1, 0, 33, 35, 91, 93, 65535,
   92, 92, 34, 34, -1, -1, 34, 34, 92, 92, -1, -1, 0, 33, 35, 91, 93, 65535, 34, 34, -1, -1, 44,
   44, 9, 9, 32, 32, -1, -1, -1, -1, -1, -1, 123, 123, 61, 61, 60, 60, 45, 45, -1, -1, -1, -1,
   -1, -1, -1, -1, -1, -1, -1, -1, -1, -1, -1, -1, -1, -1, -1, -1, -1, -1, -1, -1, -1, -1, 45,
   45, -1, -1, 124, 124, 92, 92, 61, 61, 47, 47, -1, -1, 124, 124, 61, 61, 47, 47, 45, 45, -1,
   -1, 93, 93, 45, 45, -1, -1, 62, 62, -1, -1, 62, 62, -1, -1, 62, 62, -1, -1, 62, 62, -1, -1,
   62, 62, -1, -1, 62, 62, -1, -1, 62, 62, -1, -1, 62, 62, -1, -1, 93, 93]

/-- Elements 3200 to 3399 of the array. -/
def dfaChars16 : List Int :=
  [62, 62, -1, -1, 45, 45, -1, -1, 64, 64, 93, 93, 125, 125, 123, 123, 126, 126, 124, 124, 9, 9,
   32, 32, 63, 63, 62, 62, 61, 61, 60, 60, 58, 58, 46, 46, 45, 45, 44, 44, 42, 42, 41, 41, 38,
   38, 33, 33, -1, -1, -1, -1, -1, -1, -1, -1, -1, -1, -1, -1, -1, -1, -1, -1, 45, 45, -1, -1,
   -1, -1, 124, 124, -1, -1, 124, 124, 47, 47, 38, 38, -1, -1, -1, -1, -1, -1, -1, -1, -1, -1,
   -1, -1, -1, -1, -1, -1, -1, -1, -1, -1, -1, -1, -1, -1, -1, -1, -1, -1, -1, -1, -1, -1, -1,
   -1, -1, -1, -1, -1, -1, -1, -1, -1, -1, -1, 45, 45, -1, -1, 124, 124, 92, 92, 61, 61, 47, 47,
   -1, -1, 124, 124, 61, 61, 47, 47, 45, 45, -1, -1, 93, 93, 45, 45, -1, -1, 62, 62, -1, -1, 62,
   62, -1, -1, 62, 62, -1, -1, 62, 62, -1, -1, 62, 62, -1, -1, 62, 62, -1, -1, 62, 62, -1, -1,
   62, 62, -1, -1, 93, 93, 62, 62, -1, -1, 9, 9, 32, 32, 50, 57, 49, 49]

/-- Elements 3400 to 3599 of the array. -/
def dfaChars17 : List Int :=
  [48, 48, 46, 46, -1, -1, 49, 57, 48, 48, 46, 46, -1, -1, 49, 57, 48, 48, -1, -1, -1, -1, 49,
   57, 48, 48, -1, -1, 46, 46, -1, -1, 48, 57, -1, -1, 48, 48, -1, -1, 49, 57, 48, 48, -1, -1,
   48, 57, -1, -1, 49, 57, 48, 48, -1, -1, 36, 36, -1, -1, -1, -1, 48, 48, 46, 46, -1, -1, 49,
   57, 48, 48, -1, -1, 46, 46, -1, -1, 48, 57, -1, -1, 49, 57, 48, 48, -1, -1, 37, 37, -1, -1,
   -1, -1, 37, 37, 9, 9, 32, 32, -1, -1, -1, -1, -1, -1, 44, 44, 41, 41, -1, -1, -1, -1, -1, -1,
   93, 93, -1, -1, -1, -1, 125, 125, -1, -1, -1, -1, 126, 126, 45, 45, 44, 44, 42, 42, 41, 41,
   -1, -1, -1, -1, -1, -1, -1, -1, -1, -1, -1, -1, 126, 126, 124, 124, 45, 45, 44, 44, 41, 41,
   -1, -1, -1, -1, -1, -1, -1, -1, -1, -1, -1, -1, 124, 124, -1, -1, 126, 126, 45, 45, 44, 44,
   41, 41, 38, 38, -1, -1, -1, -1, -1, -1, -1, -1, -1, -1, -1, -1, 38, 38]

/-- Elements 3600 to 3799 of the array. -/
def dfaChars18 : List Int :=
  [-1, -1, 126, 126, 45, 45, 44, 44, 41, 41, 38, 38, -1, -1, -1, -1, -1, -1, -1, -1, -1, -1, -1,
   -1, 47, 47, -1, -1, 126, 126, 45, 45, 44, 44, 41, 41, 38, 38, -1, -1, -1, -1, -1, -1, -1, -1,
   -1, -1, -1, -1, 124, 124, -1, -1, 126, 126, 124, 124, 45, 45, 44, 44, 41, 41, -1, -1, -1, -1,
   -1, -1, -1, -1, -1, -1, -1, -1, 126, 126, 45, 45, 44, 44, 41, 41, 38, 38, -1, -1, -1, -1, -1,
   -1, -1, -1, -1, -1, -1, -1, 41, 41, -1, -1, -1, -1, 64, 64, 93, 93, 125, 125, 123, 123, 126,
   126, 124, 124, 9, 9, 32, 32, 63, 63, 62, 62, 61, 61, 60, 60, 46, 46, 45, 45, 44, 44, 42, 42,
   41, 41, 38, 38, 33, 33, -1, -1, -1, -1, -1, -1, -1, -1, -1, -1, -1, -1, -1, -1, -1, -1, 45,
   45, -1, -1, -1, -1, 124, 124, -1, -1, 124, 124, 47, 47, 38, 38, -1, -1, -1, -1, -1, -1, -1,
   -1, -1, -1, -1, -1, -1, -1, -1, -1, -1, -1, -1, -1, -1, -1, -1, -1, -1, -1]

/-- Elements 3800 to 3999 of the array. -/
def dfaChars19 : List Int :=
  [-1, -1, -1, -1, -1, -1, -1, -1, -1, -1, -1, -1, -1, -1, -1, -1, 45, 45, -1, -1, 124, 124, 92,
   92, 61, 61, 47, 47, -1, -1, 124, 124, 61, 61, 47, 47, 45, 45, -1, -1, 93, 93, 45, 45, -1, -1,
   62, 62, -1, -1, 62, 62, -1, -1, 62, 62, -1, -1, 62, 62, -1, -1, 62, 62, -1, -1, 62, 62, -1,
   -1, 62, 62, -1, -1, 62, 62, -1, -1, 93, 93, 62, 62, -1, -1, 9, 9, 32, 32, 49, 49, 48, 48, 46,
   46, -1, -1, 46, 46, -1, -1, -1, -1, 48, 57, -1, -1, 46, 46, -1, -1, 48, 48, -1, -1, 48, 57,
   -1, -1, 49, 49, 48, 48, 46, 46, -1, -1, 46, 46, -1, -1, 48, 57, -1, -1, 46, 46, -1, -1, 48,
   48, -1, -1, 48, 57, -1, -1, 58, 58, -1, -1, -1, -1, 124, 124, 44, 44, 42, 42, 38, 38, -1, -1,
   124, 124, -1, -1, -1, -1, -1, -1, 124, 124, 47, 47, 38, 38, -1, -1, -1, -1, -1, -1, -1, -1,
   -1, -1, 124, 124, 42, 42, 41, 41, 38, 38, -1, -1, 124, 124, -1, -1]

/-- Elements 4000 to 4131 of the array. -/
def dfaChars20 : List Int :=
  [-1, -1, -1, -1, 124, 124, 47, 47, 38, 38, -1, -1, -1, -1, -1, -1, -1, -1, -1, -1, 62, 62, -1,
   -1, -1, -1, 49, 49, 48, 48, 46, 46, -1, -1, 46, 46, -1, -1, 48, 57, -1, -1, 46, 46, -1, -1,
   48, 48, -1, -1, 48, 57, -1, -1, 59, 59, 37, 37, 9, 9, 32, 32, -1, -1, -1, -1, -1, -1, -1, -1,
   59, 59, 37, 37, -1, -1, -1, -1, -1, -1, 36, 36, 9, 9, 32, 32, -1, -1, -1, -1, -1, -1, 48, 48,
   46, 46, -1, -1, 49, 57, 48, 48, -1, -1, 46, 46, -1, -1, 48, 57, -1, -1, 49, 57, 48, 48, -1,
   -1, 49, 57, -1, -1, 49, 57, 48, 48, -1, -1, 48, 57, -1, -1]

/-- `dfa_chars` (narsese.h:706-709). -/
def dfaChars : List Int :=
  dfaChars0 ++ dfaChars1 ++ dfaChars2 ++ dfaChars3 ++ dfaChars4 ++ dfaChars5 ++ dfaChars6 ++ dfaChars7 ++ dfaChars8 ++ dfaChars9 ++ dfaChars10 ++ dfaChars11 ++ dfaChars12 ++ dfaChars13 ++ dfaChars14 ++ dfaChars15 ++ dfaChars16 ++ dfaChars17 ++ dfaChars18 ++ dfaChars19 ++ dfaChars20

/-- Elements 0 to 199 of the array. -/
def dfaTrans0 : List Int :=
  [4, 6, 7, 8, 8, 8, 8, 8, 8, 8, 3, 13, 1, 2, 5, 12, 9, 8, -1, -1, -1, -1, -1, -1, -1, -1, 8, 8,
   8, 8, 8, 8, -1, -1, -1, -1, 10, 14, 14, 14, -1, 11, -1, 14, 14, 14, 15, 10, -1, 16, 16, -1,
   14, 14, 14, 10, -1, 8, 11, 18, 19, 61, 61, 61, 61, 61, 61, 3, 17, 10, 5, 15, 7, 25, 57, 20,
   22, 24, 58, 27, 55, 9, 28, 26, 16, 1, 13, 21, 2, 12, 23, 4, 6, 54, 14, 29, 61, -1, -1, -1, -1,
   -1, -1, -1, -1, -1, -1, -1, 31, -1, 32, 33, 34, -1, -1, -1, -1, -1, -1, -1, 62, -1, 71, 69,
   70, 72, -1, -1, -1, -1, 74, 75, 73, 35, -1, -1, 36, 37, -1, 65, 61, 61, 61, 61, 61, 63, 38,
   -1, 56, 79, -1, -1, -1, -1, -1, -1, -1, -1, 36, -1, 52, 53, -1, 38, -1, -1, -1, -1, -1, -1,
   -1, -1, -1, -1, -1, -1, -1, -1, -1, -1, 30, 60, 60, 60, -1, 61, 61, 61, 61, 61, 63, 76, -1,
   56, 59, -1, 64, 66, 67, 68]

/-- Elements 200 to 399 of the array. -/
def dfaTrans1 : List Int :=
  [-1, 61, 61, 61, 61, 61, 65, 63, -1, 59, -1, 60, 60, 60, 77, 30, -1, 61, 61, 61, 61, 61, 61,
   -1, 39, 40, -1, 61, 61, 61, 61, 61, 63, -1, 41, -1, 61, 61, 61, 61, 61, 58, 63, -1, 42, -1,
   43, -1, 44, -1, 45, -1, 46, -1, 47, -1, 48, -1, 49, -1, 50, -1, 51, -1, 56, 79, -1, 78, 78,
   -1, 60, 60, 60, 30, -1, 56, 79, -1, 4, 5, 6, 7, 7, 7, 7, 7, 7, 3, 11, 1, 2, 8, 12, -1, -1, -1,
   -1, -1, -1, -1, 7, 7, 7, 7, 7, 7, -1, -1, -1, -1, 9, -1, 10, 13, 13, 13, -1, 13, 13, 13, 14,
   10, -1, 15, 15, -1, 13, 13, 13, 10, -1, 4, 4, 4, 4, 4, 4, 3, 1, 2, 5, 10, 6, 7, 11, -1, -1,
   -1, -1, 4, 4, 4, 4, 4, 4, -1, -1, -1, -1, -1, -1, 8, -1, 9, 12, 12, 12, -1, 12, 12, 12, 13, 9,
   -1, 14, 14, -1, 12, 12, 12, 9, -1, 3, 4, 5, 6, 15, 7, 13, 17, 16, 16, 16, 16, 16, 16, 16, 1,
   2, 12]

/-- Elements 400 to 599 of the array. -/
def dfaTrans2 : List Int :=
  [8, 16, -1, -1, -1, -1, -1, -1, -1, 16, 16, 16, 16, 16, 16, 17, -1, -1, -1, -1, 11, -1, 9, 18,
   18, 18, -1, 16, 16, 16, 16, 16, 16, 11, -1, 14, -1, 10, -1, 16, 16, 16, 16, 16, 16, -1, 14,
   -1, 18, 18, 18, 19, 9, -1, 20, 20, -1, 18, 18, 18, 9, -1, 1, 3, 2, -1, 4, -1, 5, -1, 2, -1, 4,
   -1, 5, -1, 2, 1, 3, 4, -1, -1, -1, -1, -1, 1, -1, -1, 1, -1, -1, 1, -1, -1, 1, -1, -1, 7, 8,
   9, 10, 10, 10, 10, 10, 10, 10, 3, 6, 15, 4, 5, 1, 2, 14, 11, 10, -1, -1, -1, -1, -1, -1, -1,
   -1, -1, -1, 10, 10, 10, 10, 10, 10, -1, -1, -1, -1, 12, 16, 16, 16, -1, 13, -1, 16, 16, 16,
   17, 12, -1, 18, 18, -1, 16, 16, 16, 12, -1, 11, 14, 17, 17, 17, 17, 17, 17, 17, 9, 1, 13, 8,
   4, 7, 12, 10, 5, 16, 6, 15, 2, 3, 25, 18, 17, -1, -1, -1, -1, -1, -1, -1, -1, -1, -1, 20, -1,
   -1, -1, -1, 21]

/-- Elements 600 to 799 of the array. -/
def dfaTrans3 : List Int :=
  [-1, 22, 23, 24, -1, -1, 17, 17, 17, 17, 17, 17, -1, -1, -1, -1, -1, -1, -1, -1, 19, 26, 26,
   26, -1, 26, 26, 26, 27, 19, -1, 28, 28, -1, 26, 26, 26, 19, -1, 3, 5, 6, 32, 8, 9, 2, 12, 33,
   34, 1, 7, 4, 10, 11, 13, 14, 15, -1, -1, -1, -1, -1, -1, -1, 44, -1, -1, 16, -1, -1, -1, -1,
   -1, 17, 18, 19, -1, -1, -1, -1, -1, -1, -1, -1, -1, -1, -1, -1, -1, -1, -1, -1, -1, -1, 35,
   -1, 36, 37, 38, 39, -1, 42, 40, 41, 43, -1, 20, 21, -1, 22, -1, 23, -1, 24, -1, 25, -1, 26,
   -1, 27, -1, 28, -1, 29, -1, 30, 31, -1, 4, 2, 1, 1, 1, 1, 1, 1, 1, 1, -1, 1, 1, 1, 1, 1, 1,
   -1, -1, -1, 3, 5, 5, 5, -1, 5, 5, 5, 6, 3, -1, 7, 7, -1, 5, 5, 5, 3, -1, 2, 2, 1, 3, -1, 1,
   -1, -1, 1, -1, 4, 4, 4, 4, 4, 4, 3, 1, 2, 5, 6, 13, 7, 8, 9, 10, 14, -1, -1, -1, -1, 4, 4]

/-- Elements 800 to 999 of the array. -/
def dfaTrans4 : List Int :=
  [4, 4, 4, 4, -1, -1, -1, -1, -1, -1, -1, -1, -1, 11, -1, 12, 15, 15, 15, -1, 15, 15, 15, 16,
   12, -1, 17, 17, -1, 15, 15, 15, 12, -1, 7, 8, 9, 11, 11, 11, 11, 11, 11, 11, 3, 6, 16, 10, 4,
   5, 1, 2, 15, 12, 11, -1, -1, -1, -1, -1, -1, -1, -1, -1, -1, -1, 11, 11, 11, 11, 11, 11, -1,
   -1, -1, -1, 13, 17, 17, 17, -1, 14, -1, 17, 17, 17, 18, 13, -1, 19, 19, -1, 17, 17, 17, 13,
   -1, 4, 7, 8, 33, 10, 11, 16, 16, 2, 15, 34, 35, 1, 9, 6, 13, 14, 5, 12, 3, -1, -1, -1, -1, -1,
   -1, -1, -1, -1, 45, -1, -1, 17, -1, 18, 19, 20, -1, -1, -1, -1, -1, -1, -1, -1, -1, -1, -1,
   -1, -1, -1, -1, -1, -1, -1, -1, -1, -1, 36, -1, 37, 38, 39, 40, -1, 43, 41, 42, 44, -1, 21,
   22, -1, 23, -1, 24, -1, 25, -1, 26, -1, 27, -1, 28, -1, 29, -1, 30, -1, 31, 32, -1, 3, 7, 7,
   7, 7, 7, 7, 2, 5, 1, 6]

/-- Elements 1000 to 1199 of the array. -/
def dfaTrans5 : List Int :=
  [4, 8, 9, 10, 11, 12, 13, 14, 15, 16, 17, 24, -1, -1, 18, -1, -1, -1, -1, -1, 7, 7, 7, 7, 7, 7,
   -1, -1, -1, -1, 19, -1, -1, -1, -1, 21, 20, 22, -1, -1, -1, -1, -1, -1, -1, -1, -1, 23, 25,
   25, 25, -1, 25, 25, 25, 26, 23, -1, 27, 27, -1, 25, 25, 25, 23, -1, 1, 1, 1, 1, 1, 1, 3, -1,
   1, 1, 1, 1, 1, 1, -1, -1, 2, 4, 4, 4, -1, 4, 4, 4, 5, 2, -1, 6, 6, -1, 4, 4, 4, 2, -1, 1, 2,
   -1, 1, -1, 1, -1, 1, 2, 3, 3, -1, -1, -1, -1, 1, 2, -1, -1, -1, 7, 1, 2, 2, -1, -1, -1, -1,
   -1, -1, -1, 9, 10, 8, 3, -1, 4, -1, 5, -1, 6, -1, 6, 1, -1, -1, -1, -1, -1, -1, 8, 9, 7, 2,
   -1, 3, -1, 4, -1, 5, -1, 8, 9, 2, 1, 1, 1, 1, 1, 1, 1, 1, -1, 1, 1, 1, 1, 1, 1, -1, -1, -1,
   -1, -1, -1, -1, 11, 12, 10, 3, -1, 4, 13, 13, 13, -1, 5, -1, 6]

/-- Elements 1200 to 1399 of the array. -/
def dfaTrans6 : List Int :=
  [-1, 7, -1, 13, 13, 13, 14, 4, -1, 15, 15, -1, 13, 13, 13, 4, -1, 5, -1, -1, -1, -1, -1, 7, 8,
   6, 1, -1, 2, -1, 3, -1, 4, -1, 6, 1, 1, -1, -1, -1, -1, -1, -1, 8, 9, 7, 2, -1, 3, -1, 4, -1,
   5, -1, 1, 2, -1, -1, -1, 1, 2, -1, -1, -1, 3, 1, 23, 24, 25, 2, 4, 5, 6, -1, 7, -1, 35, -1,
   -1, -1, -1, 9, 8, 10, -1, -1, -1, -1, -1, -1, -1, -1, -1, -1, -1, -1, -1, -1, -1, -1, -1, 26,
   -1, 27, 28, 29, 30, -1, 33, 31, 32, 34, -1, 11, 12, -1, 13, -1, 14, -1, 15, -1, 16, -1, 17,
   -1, 18, -1, 19, -1, 20, -1, 21, 22, -1, 2, 3, 24, 25, 26, 1, 4, 5, 6, 7, -1, 36, -1, -1, 8,
   -1, -1, -1, -1, 9, 10, 11, -1, -1, -1, -1, -1, -1, -1, -1, -1, -1, -1, -1, -1, -1, -1, -1, -1,
   27, -1, 28, 29, 30, 31, -1, 34, 32, 33, 35, -1, 12, 13, -1, 14, -1, 15, -1, 16, -1, 17, -1,
   18, -1, 19]

/-- Elements 1400 to 1599 of the array. -/
def dfaTrans7 : List Int :=
  [-1, 20, -1, 21, -1, 22, 23, -1, 4, 4, 4, 4, 4, 4, 3, 1, 2, 5, 6, 14, 7, 8, 9, 10, 11, 15, -1,
   -1, -1, -1, 4, 4, 4, 4, 4, 4, -1, -1, -1, -1, -1, -1, -1, -1, -1, -1, 12, -1, 13, 16, 16, 16,
   -1, 16, 16, 16, 17, 13, -1, 18, 18, -1, 16, 16, 16, 13, -1, 1, -1, -1, 2, 1, 3, -1, -1, -1,
   -1, 1, 2, -1, -1, -1, 8, 9, 10, 11, 11, 11, 11, 11, 11, 11, 4, 7, 16, 1, 5, 6, 2, 3, 15, 12,
   11, -1, -1, -1, -1, -1, -1, -1, -1, -1, -1, -1, 11, 11, 11, 11, 11, 11, -1, -1, -1, -1, 13,
   17, 17, 17, -1, 14, -1, 17, 17, 17, 18, 13, -1, 19, 19, -1, 17, 17, 17, 13, -1, 1, 2, 2, -1,
   -1, -1, 13, 14, 15, 26, -1, -1, -1, -1, -1, -1, -1, -1, -1, -1, -1, -1, -1, 16, -1, 17, 18,
   19, 20, -1, 23, 21, 22, 24, -1, 1, 2, -1, 3, -1, 4, -1, 5, -1, 6, -1, 7, -1, 8, -1, 9, -1, 10,
   -1, 11]

/-- Elements 1600 to 1799 of the array. -/
def dfaTrans8 : List Int :=
  [12, -1, 25, -1, 4, 6, 7, 33, 9, 10, 16, 16, 2, 15, 34, 35, 14, 1, 8, 5, 12, 13, 11, 3, -1, -1,
   -1, -1, -1, -1, -1, -1, 45, -1, -1, 17, -1, 18, 19, 20, -1, -1, -1, -1, -1, -1, -1, -1, -1,
   -1, -1, -1, -1, -1, -1, -1, -1, -1, -1, -1, -1, -1, 36, -1, 37, 38, 39, 40, -1, 43, 41, 42,
   44, -1, 21, 22, -1, 23, -1, 24, -1, 25, -1, 26, -1, 27, -1, 28, -1, 29, -1, 30, -1, 31, 32,
   -1, 3, 3, 2, 1, 5, 4, -1, 2, 6, 7, -1, 2, 6, -1, -1, 8, 10, -1, 4, -1, 6, -1, 7, -1, 8, 9, -1,
   9, -1, 8, 10, -1, 1, -1, -1, 2, 4, -1, 1, 3, -1, 4, -1, 3, -1, 1, 4, -1, 1, -1, -1, 1, 2, 2,
   -1, -1, -1, 1, 2, -1, -1, -1, 1, -1, -1, 1, -1, -1, 2, 1, 3, 4, 5, -1, -1, -1, -1, -1, -1, 1,
   6, 2, 3, 4, -1, -1, -1, -1, -1, -1, 5, -1, 3, 2, 4, 1, 6, -1, -1, -1, -1, -1, -1, 5]

/-- Elements 1800 to 1999 of the array. -/
def dfaTrans9 : List Int :=
  [-1, 3, 2, 4, 1, 6, -1, -1, -1, -1, -1, -1, 5, -1, 3, 2, 4, 1, 6, -1, -1, -1, -1, -1, -1, 5,
   -1, 1, 2, 3, 4, 5, -1, -1, -1, -1, -1, -1, 3, 2, 4, 1, 5, -1, -1, -1, -1, -1, -1, 1, -1, -1,
   4, 6, 7, 32, 9, 10, 15, 15, 2, 14, 33, 34, 1, 8, 5, 12, 13, 11, 3, -1, -1, -1, -1, -1, -1, -1,
   -1, 44, -1, -1, 16, -1, 17, 18, 19, -1, -1, -1, -1, -1, -1, -1, -1, -1, -1, -1, -1, -1, -1,
   -1, -1, -1, -1, -1, -1, -1, 35, -1, 36, 37, 38, 39, -1, 42, 40, 41, 43, -1, 20, 21, -1, 22,
   -1, 23, -1, 24, -1, 25, -1, 26, -1, 27, -1, 28, -1, 29, -1, 30, 31, -1, 2, 2, 4, 1, 3, -1, 3,
   -1, -1, 6, -1, 5, -1, 5, -1, 6, -1, 1, 3, 2, -1, 4, -1, 5, -1, 2, -1, 4, -1, 5, -1, 1, -1, -1,
   1, 2, 3, 4, -1, 5, -1, -1, -1, 7, 6, 8, -1, -1, -1, -1, -1, 1, 2, 3, 4, -1, 5, -1]

/-- Elements 2000 to 2065 of the array. -/
def dfaTrans10 : List Int :=
  [-1, -1, 7, 6, 8, -1, -1, -1, -1, -1, 1, -1, -1, 1, 3, 2, -1, 4, -1, 5, -1, 2, -1, 4, -1, 5,
   -1, 1, 2, 3, 3, -1, -1, -1, -1, 1, 2, -1, -1, -1, 1, 2, 2, -1, -1, -1, 2, 4, -1, 1, 3, -1, 4,
   -1, 3, -1, 1, 4, -1, 1, -1, 1, 2, -1, 2, -1]

/-- `dfa_trans` (narsese.h:712-715). -/
def dfaTrans : List Int :=
  dfaTrans0 ++ dfaTrans1 ++ dfaTrans2 ++ dfaTrans3 ++ dfaTrans4 ++ dfaTrans5 ++ dfaTrans6 ++ dfaTrans7 ++ dfaTrans8 ++ dfaTrans9 ++ dfaTrans10

/-- `dfa_accept` (narsese.h:718-792). -/
def dfaAccept : List (List Nat) :=
  [[0, 29, 50, 52, 33, 12, 17, 16, 4, 59, 7, 15, 0, 0, 0, 0, 0],
   [0, 29, 50, 33, 12, 17, 11, 55, 18, 13, 14, 21, 20, 26, 54, 53, 48, 28, 27, 16, 52, 49, 2, 3,
    9, 51, 19, 4, 56, 59, 7, 25, 22, 23, 24, 10, 58, 15, 30, 43, 45, 40, 39, 42, 41, 38, 37, 34,
    46, 8, 6, 5, 44, 47, 0, 4, 30, 0, 4, 30, 0, 4, 0, 4, 0, 4, 0, 0, 0, 0, 0, 0, 0, 0, 0, 0, 0,
    0, 0, 30],
   [0, 29, 50, 52, 33, 17, 16, 4, 12, 15, 7, 0, 0, 0, 0, 0],
   [0, 33, 17, 16, 4, 52, 29, 50, 15, 7, 0, 0, 0, 0, 0],
   [0, 29, 50, 52, 33, 17, 16, 4, 59, 7, 15, 32, 0, 4, 32, 0, 4, 0, 0, 0, 0],
   [0, 32, 0, 32, 32, 32],
   [0, 55, 53, 56, 54],
   [0, 56],
   [0, 55],
   [0, 54],
   [0, 53],
   [0, 12, 11, 55, 29, 50, 52, 33, 17, 16, 4, 59, 7, 15, 0, 0, 0, 0, 0],
   [0, 33, 12, 11, 55, 29, 50, 52, 17, 16, 19, 18, 13, 14, 21, 20, 26, 4, 59, 7, 15, 25, 22, 23,
    24, 0, 0, 0, 0],
   [0, 56, 55, 53, 48, 28, 27, 19, 18, 21, 26, 49, 51, 50, 20, 54, 25, 22, 23, 24, 43, 45, 40,
    39, 42, 41, 38, 37, 34, 46, 44, 47, 0, 0, 0, 0, 0, 0, 0, 0, 0, 0, 0, 0, 0],
   [0, 4, 59, 7, 0, 0, 0, 0],
   [0, 58, 59, 0],
   [0, 33, 17, 16, 4, 55, 52, 29, 50, 12, 11, 15, 7, 0, 0, 0, 0, 0],
   [0, 12, 11, 55, 29, 50, 52, 33, 17, 16, 48, 4, 59, 7, 15, 0, 0, 0, 0, 0],
   [0, 56, 55, 54, 53, 50, 48, 28, 27, 19, 18, 21, 20, 26, 49, 51, 59, 25, 22, 23, 24, 43, 45,
    40, 39, 42, 41, 38, 37, 34, 46, 44, 47, 0, 0, 0, 0, 0, 0, 0, 0, 0, 0, 0, 0, 0],
   [0, 33, 21, 18, 17, 16, 14, 4, 55, 52, 13, 19, 29, 26, 50, 20, 12, 11, 25, 15, 23, 22, 24, 7,
    0, 0, 0, 0],
   [0, 4, 7, 0, 0, 0, 0],
   [0, 58, 0],
   [0, 2, 12, 59],
   [0, 2, 12],
   [0, 3, 59, 10, 8, 6, 5, 0, 0, 0, 0],
   [0, 3, 10, 8, 6, 5, 0, 0, 0, 0],
   [0, 4, 59, 10, 7, 8, 6, 5, 0, 0, 0, 0, 0, 0, 0, 0],
   [0, 10, 8, 6, 5, 0, 0, 0, 0],
   [0, 59, 10, 8, 6, 5, 0, 0, 0, 0],
   [0, 28, 48],
   [0, 27, 48],
   [0, 21, 19, 18, 48, 26, 20, 25, 23, 22, 24, 43, 45, 40, 39, 42, 41, 38, 37, 34, 46, 44, 47, 0,
    0, 0, 0, 0, 0, 0, 0, 0, 0, 0, 0, 0],
   [0, 19, 18, 21, 48, 26, 49, 20, 25, 22, 23, 24, 43, 45, 40, 39, 42, 41, 38, 37, 34, 46, 44,
    47, 0, 0, 0, 0, 0, 0, 0, 0, 0, 0, 0, 0, 0],
   [0, 33, 17, 16, 4, 55, 52, 48, 29, 50, 12, 11, 15, 7, 0, 0, 0, 0, 0],
   [0, 48],
   [0, 19, 18, 49],
   [0, 18, 19],
   [0, 48, 12, 11, 55, 29, 50, 52, 33, 17, 16, 4, 59, 7, 15, 0, 0, 0, 0, 0],
   [0, 48, 59],
   [0, 43, 45, 40, 39, 42, 41, 38, 37, 34, 46, 44, 47, 0, 0, 0, 0, 0, 0, 0, 0, 0, 0, 0, 0, 0, 0],
   [0, 56, 55, 54, 53, 48, 28, 27, 19, 18, 21, 20, 26, 49, 9, 51, 59, 25, 22, 23, 24, 43, 45, 40,
    39, 42, 41, 38, 37, 34, 46, 44, 47, 0, 0, 0, 0, 0, 0, 0, 0, 0, 0, 0, 0, 0],
   [0, 30, 35, 59, 0, 30, 35, 30, 30, 30, 30],
   [0, 12],
   [0, 31, 0, 31, 0],
   [0, 3],
   [0, 3, 59],
   [0, 48, 49],
   [0, 28],
   [0, 27],
   [0, 19, 18, 48, 26, 49],
   [0, 18, 19, 48, 49, 25, 0],
   [0, 49, 19, 18, 48, 24, 0],
   [0, 49, 19, 18, 48, 23, 0],
   [0, 49, 19, 18, 48, 22, 0],
   [0, 18, 21, 19, 48, 49],
   [0, 49, 19, 18, 48, 20],
   [0, 49],
   [0, 56, 55, 54, 53, 48, 28, 27, 19, 18, 21, 20, 26, 49, 51, 59, 25, 22, 23, 24, 43, 45, 40,
    39, 42, 41, 38, 37, 34, 46, 44, 47, 0, 0, 0, 0, 0, 0, 0, 0, 0, 0, 0, 0, 0],
   [0, 57, 59, 0, 57, 57, 57],
   [0, 57, 0, 57, 57, 57],
   [0, 9],
   [0, 21, 48, 26, 20, 25, 23, 22, 24],
   [0, 21, 26, 49, 20, 25, 23, 22, 24],
   [0, 51],
   [0, 30, 0, 30, 30, 30],
   [0, 2, 3, 59],
   [0, 2, 3],
   [0, 12, 59],
   [0, 36, 0, 36, 0],
   [0, 35, 35]]

/-- Read the transitions of one state: ranges up to the `-1, -1` terminator, walking through
`dfa_chars` and `dfa_trans` in step (`chr += 2`, `chr / 2`); returns what is left of both. -/
def readState : List Int → List Int → Option (List (Int × Int × Int) × List Int × List Int)
  | lo :: hi :: cs, t :: ts =>
    if lo > -1 then
      match readState cs ts with
      | some (r, cs', ts') => some ((lo, hi, t) :: r, cs', ts')
      | none => none
    else some ([], cs, ts)
  | _, _ => none

/-- Compare the states of one machine with their segments of the arrays. -/
def checkStates : List (List (Nat × Nat × Nat) × Nat) → List Nat → List Nat → Nat → List Int →
    List Int → Option (Nat × List Int × List Int)
  | [], [], [], pos, cs, ts => some (pos, cs, ts)
  | (tr, acc) :: m, i :: is, a :: as, pos, cs, ts =>
    if i = pos ∧ a = acc then
      match readState cs ts with
      | some (r, cs', ts') =>
        if r = tr.map (fun x => ((x.1 : Int), (x.2.1 : Int), (x.2.2 : Int))) then
          checkStates m is as (pos + 2 * (tr.length + 1)) cs' ts'
        else none
      | none => none
    else none
  | _, _, _, _, _, _ => none

/-- Compare all machines. -/
def checkMachines : List Machine → List (List Nat) → List (List Nat) → Nat → List Int →
    List Int → Bool
  | [], [], [], _, [], [] => true
  | m :: ms, i :: is, a :: as, pos, cs, ts =>
    match checkStates m i a pos cs ts with
    | some (pos', cs', ts') => checkMachines ms is as pos' cs' ts'
    | none => false
  | _, _, _, _, _, _ => false

/-- The segments of `dfa_chars` and `dfa_trans` that `dfa_idx` points to are, one after the other,
the transitions of `dfaTable`, and nothing is left over. -/
theorem dfaTable_is_raw : checkMachines dfaTable dfaIdx dfaAccept 0 dfaChars dfaTrans = true := by
  decide +kernel

end Cnars.Parser.Raw
