/-!
# Model of the tables of irreducible polynomials, `src/gf2e.c` lines 68-93

Generated by a script from the C text; entry 0 of each C array (the number of polynomials) is
`irredCount`, the remaining entries are `irredTable`.  Long tables are split into chunks.
-/

namespace M4rie

/-- gf2e.c:68, `_irreducible_polynomials_degree_01`, part 0. -/
def irredT1_0 : List Nat :=
  [0x2, 0x3]

/-- gf2e.c:68, `_irreducible_polynomials_degree_01[1..]`. -/
def irredT1 : List Nat :=
  irredT1_0

/-- gf2e.c:69, `_irreducible_polynomials_degree_02`, part 0. -/
def irredT2_0 : List Nat :=
  [0x7]

/-- gf2e.c:69, `_irreducible_polynomials_degree_02[1..]`. -/
def irredT2 : List Nat :=
  irredT2_0

/-- gf2e.c:70, `_irreducible_polynomials_degree_03`, part 0. -/
def irredT3_0 : List Nat :=
  [0xb, 0xd]

/-- gf2e.c:70, `_irreducible_polynomials_degree_03[1..]`. -/
def irredT3 : List Nat :=
  irredT3_0

/-- gf2e.c:71, `_irreducible_polynomials_degree_04`, part 0. -/
def irredT4_0 : List Nat :=
  [0x13, 0x19, 0x1f]

/-- gf2e.c:71, `_irreducible_polynomials_degree_04[1..]`. -/
def irredT4 : List Nat :=
  irredT4_0

/-- gf2e.c:72, `_irreducible_polynomials_degree_05`, part 0. -/
def irredT5_0 : List Nat :=
  [0x25, 0x29, 0x2f, 0x37, 0x3b, 0x3d]

/-- gf2e.c:72, `_irreducible_polynomials_degree_05[1..]`. -/
def irredT5 : List Nat :=
  irredT5_0

/-- gf2e.c:73, `_irreducible_polynomials_degree_06`, part 0. -/
def irredT6_0 : List Nat :=
  [0x43, 0x49, 0x57, 0x5b, 0x61, 0x67, 0x6d, 0x73, 0x75]

/-- gf2e.c:73, `_irreducible_polynomials_degree_06[1..]`. -/
def irredT6 : List Nat :=
  irredT6_0

/-- gf2e.c:74, `_irreducible_polynomials_degree_07`, part 0. -/
def irredT7_0 : List Nat :=
  [0x83, 0x89, 0x8f, 0x91, 0x9d, 0xa7, 0xab, 0xb9, 0xbf, 0xc1, 0xcb, 0xd3, 0xd5, 0xe5, 0xef, 0xf1, 0xf7, 0xfd]

/-- gf2e.c:74, `_irreducible_polynomials_degree_07[1..]`. -/
def irredT7 : List Nat :=
  irredT7_0

/-- gf2e.c:75, `_irreducible_polynomials_degree_08`, part 0. -/
def irredT8_0 : List Nat :=
  [0x11b, 0x11d, 0x12b, 0x12d, 0x139, 0x13f, 0x14d, 0x15f, 0x163, 0x165, 0x169, 0x171, 0x177, 0x17b, 0x187, 0x18b, 0x18d, 0x19f, 0x1a3, 0x1a9, 0x1b1, 0x1bd, 0x1c3, 0x1cf, 0x1d7, 0x1dd, 0x1e7, 0x1f3, 0x1f5, 0x1f9]

/-- gf2e.c:75, `_irreducible_polynomials_degree_08[1..]`. -/
def irredT8 : List Nat :=
  irredT8_0

/-- gf2e.c:76, `_irreducible_polynomials_degree_09`, part 0. -/
def irredT9_0 : List Nat :=
  [0x203, 0x211, 0x217, 0x21b, 0x221, 0x22d, 0x233, 0x24b, 0x259, 0x25f, 0x265, 0x269, 0x26f, 0x277, 0x27d, 0x287, 0x295, 0x299, 0x2a3, 0x2a5, 0x2af, 0x2b7, 0x2bd, 0x2cf, 0x2d1, 0x2db, 0x2f5, 0x2f9, 0x301, 0x313, 0x315, 0x31f, 0x323, 0x331, 0x33b, 0x349, 0x34f, 0x35b, 0x361, 0x36b, 0x36d, 0x373, 0x37f, 0x385, 0x38f, 0x3a1, 0x3b5, 0x3b9, 0x3c7, 0x3cb, 0x3cd, 0x3d5, 0x3d9, 0x3e3, 0x3e9, 0x3fb]

/-- gf2e.c:76, `_irreducible_polynomials_degree_09[1..]`. -/
def irredT9 : List Nat :=
  irredT9_0

/-- gf2e.c:77, `_irreducible_polynomials_degree_10`, part 0. -/
def irredT10_0 : List Nat :=
  [0x409, 0x40f, 0x41b, 0x41d, 0x427, 0x42d, 0x435, 0x447, 0x453, 0x463, 0x465, 0x46f, 0x481, 0x48b, 0x499, 0x4a9, 0x4af, 0x4c5, 0x4c9, 0x4d7, 0x4e7, 0x4ed, 0x4f3, 0x4ff, 0x50b, 0x50d, 0x519, 0x51f, 0x523, 0x531, 0x53d, 0x543, 0x557, 0x561, 0x567, 0x56b, 0x585, 0x58f, 0x597, 0x59b, 0x5a1, 0x5ab, 0x5b9, 0x5c1, 0x5c7, 0x5e5, 0x5f7, 0x5fb, 0x613, 0x615, 0x623, 0x625, 0x631, 0x637, 0x643, 0x64f, 0x651, 0x65b, 0x679, 0x67f, 0x685, 0x689, 0x6a7, 0x6ad, 0x6b5, 0x6bf, 0x6c1, 0x6cd, 0x6d3, 0x6df, 0x6f7, 0x6fd, 0x70f, 0x711, 0x717, 0x71d, 0x721, 0x72b, 0x735, 0x739, 0x747, 0x74d, 0x755, 0x759, 0x763, 0x77b, 0x77d, 0x781, 0x787, 0x78d, 0x793, 0x7a9, 0x7b1, 0x7c5, 0x7db, 0x7eb, 0x7f3, 0x7f9, 0x7ff]

/-- gf2e.c:77, `_irreducible_polynomials_degree_10[1..]`. -/
def irredT10 : List Nat :=
  irredT10_0

/-- gf2e.c:78, `_irreducible_polynomials_degree_11`, part 0. -/
def irredT11_0 : List Nat :=
  [0x805, 0x817, 0x82b, 0x82d, 0x847, 0x863, 0x865, 0x871, 0x87b, 0x88d, 0x895, 0x89f, 0x8a9, 0x8b1, 0x8c3, 0x8cf, 0x8d1, 0x8e1, 0x8e7, 0x8eb, 0x8f5, 0x90d, 0x913, 0x925, 0x929, 0x937, 0x93b, 0x93d, 0x945, 0x949, 0x951, 0x95b, 0x973, 0x975, 0x97f, 0x983, 0x98f, 0x9ab, 0x9ad, 0x9b9, 0x9c7, 0x9d9, 0x9e5, 0x9ef, 0x9f7, 0xa01, 0xa07, 0xa13, 0xa15, 0xa29, 0xa49, 0xa61, 0xa6d, 0xa79, 0xa7f, 0xa85, 0xa91, 0xa9d, 0xaa7, 0xaab, 0xab3, 0xab5, 0xad5, 0xadf, 0xae3, 0xae9, 0xaef, 0xaf1, 0xafb, 0xb03, 0xb09, 0xb11, 0xb33, 0xb3f, 0xb41, 0xb4b, 0xb59, 0xb5f, 0xb65, 0xb6f, 0xb7d, 0xb87, 0xb8b, 0xb93, 0xb95, 0xbaf, 0xbb7, 0xbbd, 0xbc9, 0xbdb, 0xbdd, 0xbe7, 0xbed, 0xc0b, 0xc0d, 0xc19, 0xc1f, 0xc31, 0xc57, 0xc61, 0xc6b, 0xc73, 0xc75, 0xc85, 0xc89, 0xc97, 0xc9b, 0xc9d, 0xcb3, 0xcbf, 0xcc7, 0xccd, 0xcd3, 0xcd5, 0xce3, 0xce9, 0xcf7, 0xd03, 0xd0f, 0xd1d]

/-- gf2e.c:78, `_irreducible_polynomials_degree_11`, part 1. -/
def irredT11_1 : List Nat :=
  [0xd27, 0xd2d, 0xd41, 0xd47, 0xd55, 0xd59, 0xd63, 0xd6f, 0xd71, 0xd93, 0xd9f, 0xda9, 0xdbb, 0xdbd, 0xdc9, 0xdd7, 0xddb, 0xde1, 0xde7, 0xdf5, 0xdff, 0xe05, 0xe1d, 0xe21, 0xe27, 0xe2b, 0xe33, 0xe39, 0xe47, 0xe4b, 0xe55, 0xe5f, 0xe71, 0xe7b, 0xe7d, 0xe81, 0xe93, 0xe9f, 0xea3, 0xebb, 0xec9, 0xecf, 0xedd, 0xef3, 0xef9, 0xf0b, 0xf19, 0xf31, 0xf37, 0xf5d, 0xf6b, 0xf6d, 0xf75, 0xf79, 0xf83, 0xf91, 0xf97, 0xf9b, 0xfa7, 0xfad, 0xfb5, 0xfcd, 0xfd3, 0xfe5, 0xfe9, 0xffb]

/-- gf2e.c:78, `_irreducible_polynomials_degree_11[1..]`. -/
def irredT11 : List Nat :=
  irredT11_0 ++ (irredT11_1)

/-- gf2e.c:79, `_irreducible_polynomials_degree_12`, part 0. -/
def irredT12_0 : List Nat :=
  [0x1009, 0x1017, 0x1021, 0x1033, 0x1035, 0x103f, 0x104d, 0x1053, 0x1069, 0x1077, 0x107b, 0x107d, 0x1081, 0x108b, 0x1099, 0x10a3, 0x10a5, 0x10cf, 0x10d1, 0x10eb, 0x10ed, 0x10ff, 0x1107, 0x111f, 0x1123, 0x1131, 0x1137, 0x113b, 0x114f, 0x1157, 0x1161, 0x116b, 0x116d, 0x1179, 0x1183, 0x1185, 0x1191, 0x11ab, 0x11b3, 0x11d9, 0x11df, 0x11e3, 0x11ef, 0x11f1, 0x1201, 0x120d, 0x1213, 0x1219, 0x1225, 0x1237, 0x123b, 0x123d, 0x1243, 0x1245, 0x1267, 0x126d, 0x1273, 0x127f, 0x12b5, 0x12b9, 0x12c1, 0x12cb, 0x1309, 0x130f, 0x131b, 0x131d, 0x1321, 0x1333, 0x1339, 0x133f, 0x134d, 0x1365, 0x1371, 0x1399, 0x139f, 0x13a3, 0x13a9, 0x13af, 0x13bb, 0x13c3, 0x13d1, 0x13d7, 0x13dd, 0x13f3, 0x13f5, 0x1407, 0x1413, 0x1431, 0x1437, 0x1449, 0x144f, 0x145b, 0x145d, 0x1467, 0x146b, 0x1475, 0x147f, 0x1489, 0x14a1, 0x14a7, 0x14ad, 0x14b5, 0x14cd, 0x14d3, 0x14d9, 0x14df, 0x14e5, 0x150f, 0x151d, 0x154b, 0x154d, 0x1581, 0x1593, 0x15a5, 0x15a9, 0x15bb, 0x15c5, 0x15d7, 0x15dd, 0x15eb]

/-- gf2e.c:79, `_irreducible_polynomials_degree_12`, part 1. -/
def irredT12_1 : List Nat :=
  [0x15f9, 0x1603, 0x1609, 0x161b, 0x163f, 0x1641, 0x1647, 0x164b, 0x1655, 0x1659, 0x1663, 0x1665, 0x166f, 0x1693, 0x16a5, 0x16bd, 0x16c3, 0x16c9, 0x16d1, 0x16e1, 0x16e7, 0x16f3, 0x16ff, 0x170b, 0x1715, 0x1719, 0x173d, 0x1743, 0x1745, 0x174f, 0x1757, 0x175d, 0x1773, 0x1775, 0x1779, 0x1789, 0x178f, 0x1797, 0x179d, 0x17ad, 0x17b3, 0x17bf, 0x17c1, 0x17df, 0x17fb, 0x1807, 0x180d, 0x181f, 0x1823, 0x1831, 0x1837, 0x1849, 0x1857, 0x185d, 0x186d, 0x1879, 0x187f, 0x1883, 0x1891, 0x1897, 0x18a1, 0x18b9, 0x18cb, 0x18cd, 0x18ef, 0x18f1, 0x18fb, 0x1905, 0x1909, 0x191b, 0x192d, 0x1935, 0x1941, 0x194b, 0x195f, 0x1965, 0x196f, 0x197b, 0x1981, 0x198b, 0x1999, 0x19b1, 0x19b7, 0x19bd, 0x19c9, 0x19cf, 0x19dd, 0x19e7, 0x19ed, 0x19f9, 0x1a1b, 0x1a1d, 0x1a21, 0x1a2b, 0x1a33, 0x1a4d, 0x1a53, 0x1a55, 0x1a5f, 0x1a63, 0x1a69, 0x1a7b, 0x1a8b, 0x1ab1, 0x1ac5, 0x1ad1, 0x1ae1, 0x1ae7, 0x1aeb, 0x1af5, 0x1b0b, 0x1b0d, 0x1b13, 0x1b19, 0x1b1f, 0x1b2f, 0x1b45, 0x1b57, 0x1b89, 0x1b8f]

/-- gf2e.c:79, `_irreducible_polynomials_degree_12`, part 2. -/
def irredT12_2 : List Nat :=
  [0x1b91, 0x1ba7, 0x1bb5, 0x1bb9, 0x1bbf, 0x1bc1, 0x1bcb, 0x1bd3, 0x1be3, 0x1bfd, 0x1c03, 0x1c05, 0x1c0f, 0x1c11, 0x1c17, 0x1c27, 0x1c4d, 0x1c5f, 0x1c87, 0x1c9f, 0x1ca5, 0x1cb7, 0x1cbb, 0x1cc5, 0x1cc9, 0x1ccf, 0x1cd7, 0x1ceb, 0x1ced, 0x1cf3, 0x1d01, 0x1d07, 0x1d23, 0x1d2f, 0x1d3d, 0x1d43, 0x1d51, 0x1d5b, 0x1d5d, 0x1d67, 0x1d75, 0x1d79, 0x1d83, 0x1d85, 0x1d89, 0x1d91, 0x1da7, 0x1db3, 0x1dc1, 0x1def, 0x1e07, 0x1e15, 0x1e19, 0x1e2f, 0x1e3b, 0x1e3d, 0x1e45, 0x1e51, 0x1e5d, 0x1e61, 0x1e67, 0x1e73, 0x1e8f, 0x1e97, 0x1e9b, 0x1eb9, 0x1ebf, 0x1ecd, 0x1ed3, 0x1ee3, 0x1ef1, 0x1ef7, 0x1f03, 0x1f11, 0x1f1b, 0x1f27, 0x1f39, 0x1f47, 0x1f4b, 0x1f53, 0x1f65, 0x1f71, 0x1f7d, 0x1f81, 0x1f8d, 0x1f99, 0x1faf, 0x1fbb, 0x1fbd, 0x1fc3, 0x1fc5, 0x1fc9, 0x1fe1, 0x1fed, 0x1fff]

/-- gf2e.c:79, `_irreducible_polynomials_degree_12[1..]`. -/
def irredT12 : List Nat :=
  irredT12_0 ++ (irredT12_1 ++ (irredT12_2))

/-- gf2e.c:80, `_irreducible_polynomials_degree_13`, part 0. -/
def irredT13_0 : List Nat :=
  [0x201b, 0x2027, 0x2035, 0x2053, 0x2065, 0x206f, 0x208b, 0x208d, 0x209f, 0x20a5, 0x20af, 0x20bb, 0x20bd, 0x20c3, 0x20c9, 0x20e1, 0x20f3, 0x210d, 0x2115, 0x2129, 0x212f, 0x213b, 0x2143, 0x2167, 0x216b, 0x2179, 0x2189, 0x2197, 0x219d, 0x21bf, 0x21c1, 0x21c7, 0x21cd, 0x21df, 0x21e3, 0x21f1, 0x21fb, 0x2219, 0x2225, 0x2237, 0x223d, 0x2243, 0x225b, 0x225d, 0x2279, 0x227f, 0x2289, 0x2297, 0x229b, 0x22b3, 0x22bf, 0x22cd, 0x22ef, 0x22f7, 0x22fb, 0x2305, 0x2327, 0x232b, 0x2347, 0x2355, 0x2359, 0x236f, 0x2371, 0x237d, 0x2387, 0x238d, 0x2395, 0x23a3, 0x23a9, 0x23b1, 0x23b7, 0x23bb, 0x23e1, 0x23ed, 0x23f9, 0x240b, 0x2413, 0x241f, 0x2425, 0x2429, 0x243d, 0x2451, 0x2457, 0x2461, 0x246d, 0x247f, 0x2483, 0x249b, 0x249d, 0x24b5, 0x24bf, 0x24c1, 0x24c7, 0x24cb, 0x24e3, 0x2509, 0x2517, 0x251d, 0x2521, 0x252d, 0x2539, 0x2553, 0x2555, 0x2563, 0x2571, 0x2577, 0x2587, 0x258b, 0x2595, 0x2599, 0x259f, 0x25af, 0x25bd, 0x25c5, 0x25cf, 0x25d7, 0x25eb, 0x2603, 0x2605, 0x2611]

/-- gf2e.c:80, `_irreducible_polynomials_degree_13`, part 1. -/
def irredT13_1 : List Nat :=
  [0x262d, 0x263f, 0x264b, 0x2653, 0x2659, 0x2669, 0x2677, 0x267b, 0x2687, 0x2693, 0x2699, 0x26b1, 0x26b7, 0x26bd, 0x26c3, 0x26eb, 0x26f5, 0x2713, 0x2729, 0x273b, 0x274f, 0x2757, 0x275d, 0x276b, 0x2773, 0x2779, 0x2783, 0x2791, 0x27a1, 0x27b9, 0x27c7, 0x27cb, 0x27df, 0x27ef, 0x27f1, 0x2807, 0x2819, 0x281f, 0x2823, 0x2831, 0x283b, 0x283d, 0x2845, 0x2867, 0x2875, 0x2885, 0x28ab, 0x28ad, 0x28bf, 0x28cd, 0x28d5, 0x28df, 0x28e3, 0x28e9, 0x28fb, 0x2909, 0x290f, 0x2911, 0x291b, 0x292b, 0x2935, 0x293f, 0x2941, 0x294b, 0x2955, 0x2977, 0x297d, 0x2981, 0x2993, 0x299f, 0x29af, 0x29b7, 0x29bd, 0x29c3, 0x29d7, 0x29f3, 0x29f5, 0x2a03, 0x2a0f, 0x2a1d, 0x2a21, 0x2a33, 0x2a35, 0x2a4d, 0x2a69, 0x2a6f, 0x2a71, 0x2a7b, 0x2a7d, 0x2aa5, 0x2aa9, 0x2ab1, 0x2ac5, 0x2ad7, 0x2adb, 0x2aeb, 0x2af3, 0x2b01, 0x2b15, 0x2b23, 0x2b25, 0x2b2f, 0x2b37, 0x2b43, 0x2b49, 0x2b6d, 0x2b7f, 0x2b85, 0x2b97, 0x2b9b, 0x2bad, 0x2bb3, 0x2bd9, 0x2be5, 0x2bfd, 0x2c0f, 0x2c21, 0x2c2b, 0x2c2d, 0x2c3f]

/-- gf2e.c:80, `_irreducible_polynomials_degree_13`, part 2. -/
def irredT13_2 : List Nat :=
  [0x2c41, 0x2c4d, 0x2c71, 0x2c8b, 0x2c8d, 0x2c95, 0x2ca3, 0x2caf, 0x2cbd, 0x2cc5, 0x2cd1, 0x2cd7, 0x2ce1, 0x2ce7, 0x2ceb, 0x2d0d, 0x2d19, 0x2d29, 0x2d2f, 0x2d37, 0x2d3b, 0x2d45, 0x2d5b, 0x2d67, 0x2d75, 0x2d89, 0x2d8f, 0x2da7, 0x2dab, 0x2db5, 0x2de3, 0x2df1, 0x2dfd, 0x2e07, 0x2e13, 0x2e15, 0x2e29, 0x2e49, 0x2e4f, 0x2e5b, 0x2e5d, 0x2e61, 0x2e6b, 0x2e8f, 0x2e91, 0x2e97, 0x2e9d, 0x2eab, 0x2eb3, 0x2eb9, 0x2edf, 0x2efb, 0x2efd, 0x2f05, 0x2f09, 0x2f11, 0x2f17, 0x2f3f, 0x2f41, 0x2f4b, 0x2f4d, 0x2f59, 0x2f5f, 0x2f65, 0x2f69, 0x2f95, 0x2fa5, 0x2faf, 0x2fb1, 0x2fcf, 0x2fdd, 0x2fe7, 0x2fed, 0x2ff5, 0x2fff, 0x3007, 0x3015, 0x3019, 0x302f, 0x3049, 0x304f, 0x3067, 0x3079, 0x307f, 0x3091, 0x30a1, 0x30b5, 0x30bf, 0x30c1, 0x30d3, 0x30d9, 0x30e5, 0x30ef, 0x3105, 0x310f, 0x3135, 0x3147, 0x314d, 0x315f, 0x3163, 0x3171, 0x317b, 0x31a3, 0x31a9, 0x31b7, 0x31c5, 0x31c9, 0x31db, 0x31e1, 0x31eb, 0x31ed, 0x31f3, 0x31ff, 0x3209, 0x320f, 0x321d, 0x3227, 0x3239, 0x324b, 0x3253]

/-- gf2e.c:80, `_irreducible_polynomials_degree_13`, part 3. -/
def irredT13_3 : List Nat :=
  [0x3259, 0x3265, 0x3281, 0x3293, 0x3299, 0x329f, 0x32a9, 0x32b7, 0x32bb, 0x32c3, 0x32d7, 0x32db, 0x32e7, 0x3307, 0x3315, 0x332f, 0x3351, 0x335d, 0x3375, 0x3397, 0x339b, 0x33ab, 0x33b9, 0x33c1, 0x33c7, 0x33d5, 0x33e3, 0x33e5, 0x33f7, 0x33fb, 0x3409, 0x341b, 0x3427, 0x3441, 0x344d, 0x345f, 0x3469, 0x3477, 0x347b, 0x3487, 0x3493, 0x3499, 0x34a5, 0x34bd, 0x34c9, 0x34db, 0x34e7, 0x34f9, 0x350d, 0x351f, 0x3525, 0x3531, 0x3537, 0x3545, 0x354f, 0x355d, 0x356d, 0x3573, 0x357f, 0x359d, 0x35a1, 0x35b9, 0x35cd, 0x35d5, 0x35d9, 0x35e3, 0x35e9, 0x35ef, 0x3601, 0x360b, 0x361f, 0x3625, 0x362f, 0x363b, 0x3649, 0x3651, 0x365b, 0x3673, 0x3675, 0x3691, 0x369b, 0x369d, 0x36ad, 0x36cb, 0x36d3, 0x36d5, 0x36e3, 0x36ef, 0x3705, 0x370f, 0x371b, 0x3721, 0x372d, 0x3739, 0x3741, 0x3747, 0x3753, 0x3771, 0x3777, 0x378b, 0x3795, 0x3799, 0x37a3, 0x37c5, 0x37cf, 0x37d1, 0x37d7, 0x37dd, 0x37e1, 0x37f3, 0x3803, 0x3805, 0x3817, 0x381d, 0x3827, 0x3833, 0x384b, 0x3859, 0x3869, 0x3871]

/-- gf2e.c:80, `_irreducible_polynomials_degree_13`, part 4. -/
def irredT13_4 : List Nat :=
  [0x38a3, 0x38b1, 0x38bb, 0x38c9, 0x38cf, 0x38e1, 0x38f3, 0x38f9, 0x3901, 0x3907, 0x390b, 0x3913, 0x3931, 0x394f, 0x3967, 0x396d, 0x3983, 0x3985, 0x3997, 0x39a1, 0x39a7, 0x39ad, 0x39cb, 0x39cd, 0x39d3, 0x39ef, 0x39f7, 0x39fd, 0x3a07, 0x3a29, 0x3a2f, 0x3a3d, 0x3a51, 0x3a5d, 0x3a61, 0x3a67, 0x3a73, 0x3a75, 0x3a89, 0x3ab9, 0x3abf, 0x3acd, 0x3ad3, 0x3ad5, 0x3adf, 0x3ae5, 0x3ae9, 0x3afb, 0x3b11, 0x3b2b, 0x3b2d, 0x3b35, 0x3b3f, 0x3b53, 0x3b59, 0x3b63, 0x3b65, 0x3b6f, 0x3b71, 0x3b77, 0x3b8b, 0x3b99, 0x3ba5, 0x3ba9, 0x3bb7, 0x3bbb, 0x3bd1, 0x3be7, 0x3bf3, 0x3bff, 0x3c0d, 0x3c13, 0x3c15, 0x3c1f, 0x3c23, 0x3c25, 0x3c3b, 0x3c4f, 0x3c5d, 0x3c6d, 0x3c83, 0x3c8f, 0x3c9d, 0x3ca7, 0x3cab, 0x3cb9, 0x3cc7, 0x3ce9, 0x3cfb, 0x3cfd, 0x3d03, 0x3d17, 0x3d1b, 0x3d21, 0x3d2d, 0x3d33, 0x3d35, 0x3d41, 0x3d4d, 0x3d65, 0x3d69, 0x3d7d, 0x3d81, 0x3d95, 0x3db1, 0x3db7, 0x3dc3, 0x3dd1, 0x3ddb, 0x3de7, 0x3deb, 0x3df9, 0x3e05, 0x3e09, 0x3e0f, 0x3e1b, 0x3e2b, 0x3e3f, 0x3e41, 0x3e53]

/-- gf2e.c:80, `_irreducible_polynomials_degree_13`, part 5. -/
def irredT13_5 : List Nat :=
  [0x3e65, 0x3e69, 0x3e8b, 0x3ea3, 0x3ebd, 0x3ec5, 0x3ed7, 0x3edd, 0x3ee1, 0x3ef9, 0x3f0d, 0x3f19, 0x3f1f, 0x3f25, 0x3f37, 0x3f3d, 0x3f43, 0x3f45, 0x3f49, 0x3f51, 0x3f57, 0x3f61, 0x3f83, 0x3f89, 0x3f91, 0x3fab, 0x3fb5, 0x3fe3, 0x3ff7, 0x3ffd]

/-- gf2e.c:80, `_irreducible_polynomials_degree_13[1..]`. -/
def irredT13 : List Nat :=
  irredT13_0 ++ (irredT13_1 ++ (irredT13_2 ++ (irredT13_3 ++ (irredT13_4 ++ (irredT13_5)))))

/-- gf2e.c:81, `_irreducible_polynomials_degree_14`, part 0. -/
def irredT14_0 : List Nat :=
  [0x4021, 0x402b, 0x4033, 0x4039, 0x403f, 0x4053, 0x405f, 0x4065, 0x407b, 0x4087, 0x40a9, 0x40af, 0x40bb, 0x40bd, 0x40cf, 0x40d7, 0x40eb, 0x40f3, 0x40f9, 0x410b, 0x410d, 0x4113, 0x413b, 0x4143, 0x4149, 0x4157, 0x4167, 0x416d, 0x4191, 0x419b, 0x419d, 0x41a7, 0x41ab, 0x41ad, 0x41b5, 0x41d5, 0x41d9, 0x41f1, 0x4201, 0x420d, 0x4245, 0x4249, 0x4257, 0x4261, 0x4273, 0x4279, 0x427f, 0x4283, 0x4285, 0x429d, 0x42a1, 0x42c7, 0x42cb, 0x42cd, 0x42e3, 0x42e9, 0x42ef, 0x4303, 0x4309, 0x431b, 0x4321, 0x4327, 0x433f, 0x4369, 0x437b, 0x437d, 0x4387, 0x4395, 0x43af, 0x43c9, 0x43dd, 0x43eb, 0x43ed, 0x43ff, 0x440b, 0x440d, 0x4443, 0x445d, 0x4473, 0x4489, 0x44c1, 0x44d3, 0x44d5, 0x44df, 0x44e3, 0x44f1, 0x44fb, 0x4503, 0x4509, 0x450f, 0x452b, 0x4539, 0x4559, 0x456f, 0x4577, 0x457d, 0x458d, 0x4599, 0x459f, 0x45a5, 0x45b7, 0x45c5, 0x45c9, 0x45d1, 0x45d7, 0x45e7, 0x45f3, 0x45ff, 0x460f, 0x461d, 0x4627, 0x4635, 0x4647, 0x4659, 0x4663, 0x4671, 0x467b, 0x468d, 0x4693, 0x4695]

/-- gf2e.c:81, `_irreducible_polynomials_degree_14`, part 1. -/
def irredT14_1 : List Nat :=
  [0x46a3, 0x46a5, 0x46c5, 0x46cf, 0x46db, 0x46eb, 0x46ff, 0x4725, 0x4731, 0x4743, 0x474f, 0x477f, 0x4789, 0x4791, 0x479b, 0x47a7, 0x47b5, 0x47c1, 0x47d3, 0x47d9, 0x47e5, 0x47e9, 0x47ef, 0x47fd, 0x4813, 0x4819, 0x481f, 0x483b, 0x4843, 0x4851, 0x485b, 0x4861, 0x4867, 0x487f, 0x4883, 0x4891, 0x48bf, 0x48c7, 0x48e3, 0x48f1, 0x48f7, 0x48fd, 0x491d, 0x4921, 0x492d, 0x4939, 0x4941, 0x4953, 0x495f, 0x4965, 0x4969, 0x4977, 0x4987, 0x498b, 0x49a9, 0x49cf, 0x49d1, 0x49dd, 0x49e1, 0x49e7, 0x4a17, 0x4a35, 0x4a59, 0x4a65, 0x4a7b, 0x4a81, 0x4a87, 0x4a8b, 0x4a93, 0x4aa3, 0x4aaf, 0x4abd, 0x4ac9, 0x4add, 0x4aed, 0x4af9, 0x4b1f, 0x4b37, 0x4b49, 0x4b5b, 0x4b61, 0x4b6b, 0x4b6d, 0x4b73, 0x4b79, 0x4b85, 0x4b8f, 0x4b97, 0x4ba1, 0x4bab, 0x4bb3, 0x4bb9, 0x4bcb, 0x4bcd, 0x4bd5, 0x4bdf, 0x4bf1, 0x4bfb, 0x4c09, 0x4c1b, 0x4c1d, 0x4c27, 0x4c2b, 0x4c3f, 0x4c47, 0x4c4b, 0x4c53, 0x4c55, 0x4c65, 0x4c7d, 0x4c8d, 0x4ca5, 0x4cbd, 0x4cc5, 0x4cd1, 0x4cd7, 0x4ced, 0x4cff, 0x4d15, 0x4d1f]

/-- gf2e.c:81, `_irreducible_polynomials_degree_14`, part 2. -/
def irredT14_2 : List Nat :=
  [0x4d29, 0x4d31, 0x4d45, 0x4d4f, 0x4d51, 0x4d75, 0x4d85, 0x4d8f, 0x4dad, 0x4db3, 0x4dc1, 0x4dd3, 0x4df1, 0x4dfb, 0x4e01, 0x4e15, 0x4e23, 0x4e37, 0x4e43, 0x4e49, 0x4e51, 0x4e6b, 0x4e6d, 0x4e83, 0x4e9b, 0x4eb3, 0x4ed3, 0x4ee5, 0x4ee9, 0x4eef, 0x4f1d, 0x4f21, 0x4f4b, 0x4f55, 0x4f5f, 0x4f69, 0x4f6f, 0x4f81, 0x4f8d, 0x4f9f, 0x4fa5, 0x4fa9, 0x4fb7, 0x4fbb, 0x4fd7, 0x4feb, 0x4fed, 0x4ff9, 0x5007, 0x501f, 0x5025, 0x505b, 0x505d, 0x50a1, 0x50cb, 0x50d5, 0x50d9, 0x50e3, 0x50e9, 0x50ef, 0x50fb, 0x511b, 0x5121, 0x512d, 0x513f, 0x5153, 0x5159, 0x515f, 0x516f, 0x517d, 0x518b, 0x5199, 0x51a5, 0x51b1, 0x51b7, 0x51cf, 0x51d1, 0x51db, 0x51eb, 0x51ed, 0x51f5, 0x51ff, 0x5205, 0x520f, 0x522d, 0x5265, 0x5271, 0x528b, 0x5299, 0x52a3, 0x52b1, 0x52bd, 0x52c3, 0x52c5, 0x52cf, 0x52d1, 0x52e7, 0x52eb, 0x52f9, 0x5301, 0x5319, 0x5325, 0x5329, 0x5337, 0x5349, 0x535b, 0x5367, 0x5375, 0x539b, 0x539d, 0x53a7, 0x53b9, 0x53bf, 0x53c7, 0x53d3, 0x53e5, 0x53f1, 0x53fd, 0x5403, 0x540f]

/-- gf2e.c:81, `_irreducible_polynomials_degree_14`, part 3. -/
def irredT14_3 : List Nat :=
  [0x5417, 0x5435, 0x5439, 0x5447, 0x5459, 0x545f, 0x547b, 0x548d, 0x5493, 0x5495, 0x549f, 0x54b1, 0x54b7, 0x54bb, 0x54dd, 0x54e1, 0x54eb, 0x5513, 0x5519, 0x552f, 0x5537, 0x5567, 0x556b, 0x5575, 0x5579, 0x557f, 0x5583, 0x5585, 0x5591, 0x5597, 0x55ad, 0x55c1, 0x55d3, 0x55df, 0x55e9, 0x55f7, 0x5607, 0x560d, 0x5615, 0x5623, 0x5629, 0x562f, 0x5631, 0x5657, 0x565d, 0x569b, 0x56ab, 0x56ad, 0x56b3, 0x56c1, 0x56c7, 0x56cd, 0x56f1, 0x56f7, 0x56fb, 0x572b, 0x572d, 0x573f, 0x574b, 0x5755, 0x5759, 0x5763, 0x5765, 0x577d, 0x5793, 0x57af, 0x57bd, 0x57c3, 0x57c5, 0x57d7, 0x57e7, 0x57f3, 0x5803, 0x5811, 0x5821, 0x582d, 0x5833, 0x5835, 0x583f, 0x5841, 0x587d, 0x5887, 0x588b, 0x5895, 0x5899, 0x58a3, 0x58af, 0x58b1, 0x58d1, 0x58dd, 0x58e7, 0x58eb, 0x58f9, 0x58ff, 0x5913, 0x5923, 0x593b, 0x594f, 0x597f, 0x598f, 0x5997, 0x599d, 0x59a1, 0x59a7, 0x59ab, 0x59b5, 0x59cb, 0x59df, 0x59e9, 0x59fd, 0x5a0d, 0x5a13, 0x5a1f, 0x5a25, 0x5a3b, 0x5a3d, 0x5a43, 0x5a45, 0x5a49, 0x5a75]

/-- gf2e.c:81, `_irreducible_polynomials_degree_14`, part 4. -/
def irredT14_4 : List Nat :=
  [0x5a8f, 0x5aa7, 0x5ab5, 0x5ac1, 0x5ad3, 0x5ad5, 0x5ad9, 0x5af7, 0x5b0f, 0x5b17, 0x5b1d, 0x5b2b, 0x5b33, 0x5b39, 0x5b41, 0x5b63, 0x5b69, 0x5b77, 0x5b99, 0x5ba3, 0x5ba9, 0x5bc3, 0x5bc5, 0x5be1, 0x5beb, 0x5bf9, 0x5c07, 0x5c0b, 0x5c19, 0x5c31, 0x5c37, 0x5c49, 0x5c5d, 0x5c6d, 0x5c79, 0x5c83, 0x5ca1, 0x5cbf, 0x5cc1, 0x5ccb, 0x5ccd, 0x5ce5, 0x5d05, 0x5d11, 0x5d1d, 0x5d33, 0x5d35, 0x5d47, 0x5d6f, 0x5d87, 0x5d8d, 0x5d95, 0x5d9f, 0x5da3, 0x5da9, 0x5dbb, 0x5dc9, 0x5dcf, 0x5ddb, 0x5de1, 0x5e03, 0x5e0f, 0x5e1b, 0x5e2d, 0x5e47, 0x5e4b, 0x5e63, 0x5e7d, 0x5e81, 0x5e99, 0x5ea5, 0x5ea9, 0x5ed7, 0x5edb, 0x5ee7, 0x5ef5, 0x5f07, 0x5f0d, 0x5f19, 0x5f1f, 0x5f23, 0x5f3d, 0x5f43, 0x5f45, 0x5f51, 0x5f61, 0x5f6b, 0x5f75, 0x5f89, 0x5f97, 0x5fab, 0x5fcd, 0x5fdf, 0x5fe3, 0x5fe5, 0x5ff1, 0x600b, 0x600d, 0x6015, 0x602f, 0x603d, 0x604f, 0x6051, 0x6061, 0x6067, 0x606b, 0x6089, 0x6097, 0x609d, 0x60a1, 0x60ab, 0x60b3, 0x60b9, 0x60d3, 0x60d5, 0x60f7, 0x6109, 0x6111, 0x612d, 0x6139]

/-- gf2e.c:81, `_irreducible_polynomials_degree_14`, part 5. -/
def irredT14_5 : List Nat :=
  [0x6141, 0x6153, 0x6171, 0x617d, 0x619f, 0x61a5, 0x61af, 0x61bb, 0x61db, 0x61ed, 0x61f5, 0x61ff, 0x622b, 0x6233, 0x6235, 0x6239, 0x6247, 0x624d, 0x6263, 0x626f, 0x627d, 0x628d, 0x629f, 0x62a5, 0x62a9, 0x62b1, 0x62b7, 0x62d7, 0x62db, 0x62dd, 0x62eb, 0x62ed, 0x62f3, 0x62ff, 0x6323, 0x6331, 0x6337, 0x633d, 0x635b, 0x636d, 0x6375, 0x6385, 0x6389, 0x6391, 0x63a1, 0x63bf, 0x63ef, 0x63fd, 0x6409, 0x6417, 0x642d, 0x6441, 0x6447, 0x644d, 0x6455, 0x648b, 0x6495, 0x649f, 0x64a9, 0x64b1, 0x64e7, 0x64f5, 0x6501, 0x650b, 0x6519, 0x6537, 0x653b, 0x6543, 0x6545, 0x6549, 0x655b, 0x6583, 0x6591, 0x65a7, 0x65ad, 0x65b9, 0x65bf, 0x65d3, 0x65d5, 0x65d9, 0x65e5, 0x65ef, 0x65f1, 0x65f7, 0x6601, 0x6607, 0x660d, 0x6623, 0x663b, 0x664f, 0x665d, 0x666b, 0x666d, 0x6673, 0x6683, 0x668f, 0x6697, 0x66a7, 0x66ab, 0x66b5, 0x66b9, 0x66d9, 0x66df, 0x66e9, 0x6711, 0x671b, 0x6721, 0x6733, 0x674b, 0x675f, 0x6769, 0x6777, 0x6781, 0x67a3, 0x67af, 0x67b7, 0x67d1, 0x67e7, 0x67eb, 0x67f5]

/-- gf2e.c:81, `_irreducible_polynomials_degree_14`, part 6. -/
def irredT14_6 : List Nat :=
  [0x6803, 0x6811, 0x681b, 0x681d, 0x682b, 0x6841, 0x6853, 0x686f, 0x6877, 0x688b, 0x688d, 0x6893, 0x689f, 0x68a5, 0x68a9, 0x68c5, 0x68c9, 0x68ff, 0x6907, 0x6919, 0x692f, 0x693d, 0x6957, 0x696b, 0x6973, 0x6975, 0x6979, 0x6985, 0x698f, 0x699b, 0x699d, 0x69a1, 0x69ab, 0x69c7, 0x69cd, 0x69e9, 0x6a01, 0x6a07, 0x6a0b, 0x6a19, 0x6a23, 0x6a2f, 0x6a51, 0x6a5b, 0x6a67, 0x6a6b, 0x6a6d, 0x6a75, 0x6a83, 0x6a97, 0x6ab3, 0x6ab5, 0x6abf, 0x6ac1, 0x6acb, 0x6acd, 0x6ae9, 0x6aef, 0x6afb, 0x6afd, 0x6b03, 0x6b17, 0x6b2b, 0x6b33, 0x6b39, 0x6b47, 0x6b4b, 0x6b55, 0x6b69, 0x6b7d, 0x6b81, 0x6b8d, 0x6b95, 0x6b9f, 0x6ba3, 0x6ba5, 0x6bb1, 0x6bb7, 0x6bc5, 0x6bd7, 0x6be1, 0x6bed, 0x6bf3, 0x6bf9, 0x6c0b, 0x6c19, 0x6c2f, 0x6c3d, 0x6c45, 0x6c57, 0x6c61, 0x6c73, 0x6cb5, 0x6cb9, 0x6cbf, 0x6cc1, 0x6cc7, 0x6ccb, 0x6ce5, 0x6cf1, 0x6d05, 0x6d09, 0x6d0f, 0x6d17, 0x6d2b, 0x6d53, 0x6d63, 0x6d65, 0x6d69, 0x6d7b, 0x6da3, 0x6db1, 0x6dbb, 0x6dbd, 0x6dc3, 0x6dc5, 0x6ddd, 0x6e09, 0x6e27, 0x6e2d]

/-- gf2e.c:81, `_irreducible_polynomials_degree_14`, part 7. -/
def irredT14_7 : List Nat :=
  [0x6e33, 0x6e41, 0x6e4d, 0x6e53, 0x6e6f, 0x6e7b, 0x6e81, 0x6e87, 0x6e95, 0x6eaf, 0x6eb7, 0x6ec3, 0x6edb, 0x6edd, 0x6ef9, 0x6f01, 0x6f15, 0x6f29, 0x6f31, 0x6f3b, 0x6f4f, 0x6f57, 0x6f5b, 0x6f61, 0x6f85, 0x6f91, 0x6f97, 0x6fab, 0x6fb5, 0x6fc7, 0x6fd9, 0x6fdf, 0x6fe9, 0x7005, 0x701d, 0x702b, 0x7033, 0x7035, 0x704b, 0x707d, 0x7081, 0x708d, 0x70a9, 0x70b7, 0x70bb, 0x70c9, 0x70cf, 0x70dd, 0x70e1, 0x7113, 0x7115, 0x7119, 0x7123, 0x7131, 0x7137, 0x713d, 0x715d, 0x716b, 0x7189, 0x7197, 0x719b, 0x71a1, 0x71b5, 0x71bf, 0x71cb, 0x71df, 0x71e5, 0x71f7, 0x71fb, 0x7219, 0x721f, 0x722f, 0x7231, 0x723b, 0x724f, 0x7261, 0x7267, 0x728f, 0x72ad, 0x72b3, 0x72c1, 0x72cd, 0x72d3, 0x72df, 0x72e5, 0x72f1, 0x72f7, 0x7303, 0x7309, 0x7327, 0x732b, 0x7341, 0x7355, 0x7365, 0x736f, 0x738d, 0x7393, 0x73a5, 0x73bd, 0x73c9, 0x73d1, 0x73e7, 0x73f3, 0x73f5, 0x73ff, 0x7413, 0x7415, 0x7429, 0x744f, 0x7457, 0x745b, 0x746b, 0x746d, 0x7483, 0x74ab, 0x74b3, 0x74c7, 0x74cd, 0x74d5, 0x74df]

/-- gf2e.c:81, `_irreducible_polynomials_degree_14`, part 8. -/
def irredT14_8 : List Nat :=
  [0x74e9, 0x74fb, 0x74fd, 0x7517, 0x751b, 0x7521, 0x7535, 0x7541, 0x754b, 0x7577, 0x757b, 0x7581, 0x7599, 0x75a3, 0x75bd, 0x75cf, 0x75d1, 0x75eb, 0x75f5, 0x75f9, 0x75ff, 0x761d, 0x7639, 0x7647, 0x7653, 0x7655, 0x765f, 0x7663, 0x7665, 0x7669, 0x7687, 0x7695, 0x769f, 0x76a3, 0x76af, 0x76bb, 0x76c5, 0x76d1, 0x76eb, 0x76f3, 0x76f9, 0x770b, 0x772f, 0x7749, 0x7751, 0x7757, 0x776d, 0x7773, 0x7783, 0x7789, 0x77a7, 0x77ad, 0x77b5, 0x77c7, 0x77d3, 0x77d5, 0x77ef, 0x7815, 0x7825, 0x7831, 0x783d, 0x784f, 0x7851, 0x785b, 0x786d, 0x78a7, 0x78ad, 0x78b3, 0x78bf, 0x78cb, 0x78cd, 0x78d9, 0x78df, 0x78e9, 0x78ef, 0x7903, 0x790f, 0x7917, 0x7927, 0x7933, 0x794d, 0x7959, 0x796f, 0x7971, 0x797b, 0x7981, 0x7987, 0x79a5, 0x79b1, 0x79c5, 0x79c9, 0x79d7, 0x79dd, 0x7a03, 0x7a1b, 0x7a27, 0x7a2b, 0x7a35, 0x7a3f, 0x7a4b, 0x7a55, 0x7a77, 0x7a81, 0x7a8d, 0x7aa9, 0x7ab7, 0x7abb, 0x7ac3, 0x7ae1, 0x7af3, 0x7af5, 0x7b0b, 0x7b23, 0x7b3b, 0x7b45, 0x7b4f, 0x7b51, 0x7b5d, 0x7b67, 0x7b79]

/-- gf2e.c:81, `_irreducible_polynomials_degree_14`, part 9. -/
def irredT14_9 : List Nat :=
  [0x7b85, 0x7b8f, 0x7ba1, 0x7bab, 0x7bb9, 0x7bd3, 0x7be3, 0x7bf1, 0x7bf7, 0x7c05, 0x7c09, 0x7c27, 0x7c2d, 0x7c59, 0x7c69, 0x7c7d, 0x7c8b, 0x7c93, 0x7c95, 0x7ca3, 0x7cb7, 0x7cc3, 0x7cd1, 0x7cdd, 0x7ceb, 0x7cf9, 0x7cff, 0x7d01, 0x7d15, 0x7d37, 0x7d45, 0x7d49, 0x7d73, 0x7d79, 0x7d8f, 0x7d91, 0x7d97, 0x7da7, 0x7db3, 0x7dc7, 0x7dcd, 0x7dd5, 0x7de9, 0x7dfb, 0x7dfd, 0x7e01, 0x7e0d, 0x7e19, 0x7e2f, 0x7e45, 0x7e61, 0x7e75, 0x7e7f, 0x7e89, 0x7e8f, 0x7e9b, 0x7e9d, 0x7eab, 0x7ebf, 0x7ec7, 0x7ed3, 0x7ee3, 0x7ee5, 0x7f09, 0x7f21, 0x7f3f, 0x7f4d, 0x7f55, 0x7f71, 0x7f8b, 0x7f8d, 0x7f99, 0x7f9f, 0x7fa3, 0x7fb1, 0x7fc3, 0x7fc5, 0x7fd1, 0x7fd7, 0x7fe1, 0x7fe7]

/-- gf2e.c:81, `_irreducible_polynomials_degree_14[1..]`. -/
def irredT14 : List Nat :=
  irredT14_0 ++ (irredT14_1 ++ (irredT14_2 ++ (irredT14_3 ++ (irredT14_4 ++ (irredT14_5 ++ (irredT14_6 ++ (irredT14_7 ++ (irredT14_8 ++ (irredT14_9)))))))))

/-- gf2e.c:82, `_irreducible_polynomials_degree_15`, part 0. -/
def irredT15_0 : List Nat :=
  [0x8003, 0x8011, 0x8017, 0x802d, 0x8035, 0x805f, 0x806f, 0x8077, 0x8081, 0x8087, 0x8093, 0x80a5, 0x80b1, 0x80bd, 0x80c3, 0x80cf, 0x80dd, 0x80e7, 0x80f5, 0x80ff, 0x8101, 0x8115, 0x8125, 0x8157, 0x815d, 0x8161, 0x816d, 0x8179, 0x8185, 0x81a1, 0x81a7, 0x81b9, 0x81cb, 0x81cd, 0x81d5, 0x81df, 0x81fd, 0x8213, 0x823b, 0x8245, 0x827f, 0x8289, 0x828f, 0x829b, 0x82cb, 0x82d9, 0x82e3, 0x82f1, 0x8317, 0x831b, 0x832b, 0x8333, 0x8347, 0x834d, 0x835f, 0x8363, 0x8369, 0x8371, 0x838b, 0x8395, 0x8399, 0x83af, 0x83bb, 0x83bd, 0x83c5, 0x83d1, 0x83f5, 0x8419, 0x8423, 0x842f, 0x8431, 0x8437, 0x8449, 0x8467, 0x846d, 0x8479, 0x8483, 0x8485, 0x8497, 0x84a1, 0x84b5, 0x84df, 0x84ef, 0x84f7, 0x84fb, 0x84fd, 0x851d, 0x8521, 0x8527, 0x8533, 0x8547, 0x854b, 0x855f, 0x8571, 0x857b, 0x8581, 0x858d, 0x85a3, 0x85b1, 0x85b7, 0x85c5, 0x85c9, 0x85db, 0x85ed, 0x85f3, 0x8609, 0x8611, 0x861d, 0x862b, 0x8655, 0x8659, 0x8665, 0x867d, 0x8681, 0x8693, 0x86a9, 0x86af, 0x86b7, 0x86c3, 0x86db]

/-- gf2e.c:82, `_irreducible_polynomials_degree_15`, part 1. -/
def irredT15_1 : List Nat :=
  [0x86f3, 0x86ff, 0x870b, 0x870d, 0x8715, 0x871f, 0x8729, 0x8731, 0x876b, 0x8785, 0x8789, 0x878f, 0x879d, 0x87ab, 0x87ad, 0x87b3, 0x87bf, 0x87df, 0x87e9, 0x87f1, 0x87f7, 0x8801, 0x8807, 0x8825, 0x8837, 0x883b, 0x8849, 0x885d, 0x8861, 0x8873, 0x8879, 0x8883, 0x888f, 0x8891, 0x88b3, 0x88b5, 0x88c7, 0x88d9, 0x8903, 0x8905, 0x8909, 0x8911, 0x8917, 0x8927, 0x8965, 0x897d, 0x8995, 0x8999, 0x89af, 0x89cf, 0x89d1, 0x89db, 0x89dd, 0x89ed, 0x89ff, 0x8a17, 0x8a39, 0x8a55, 0x8a63, 0x8a65, 0x8a71, 0x8a7b, 0x8a87, 0x8a8b, 0x8a9f, 0x8aaf, 0x8ab1, 0x8add, 0x8b0b, 0x8b0d, 0x8b3b, 0x8b3d, 0x8b43, 0x8b6d, 0x8b73, 0x8b91, 0x8b9d, 0x8bc1, 0x8bcb, 0x8bd5, 0x8bd9, 0x8be5, 0x8bf1, 0x8c21, 0x8c27, 0x8c47, 0x8c55, 0x8c59, 0x8c63, 0x8c69, 0x8c87, 0x8c93, 0x8ca3, 0x8ca9, 0x8cbb, 0x8cc9, 0x8ce1, 0x8ceb, 0x8d01, 0x8d07, 0x8d0b, 0x8d25, 0x8d2f, 0x8d43, 0x8d51, 0x8d5b, 0x8d6d, 0x8d7f, 0x8d85, 0x8d89, 0x8d9b, 0x8da1, 0x8dbf, 0x8dcb, 0x8dcd, 0x8de5, 0x8de9, 0x8def, 0x8df7, 0x8e0b]

/-- gf2e.c:82, `_irreducible_polynomials_degree_15`, part 2. -/
def irredT15_2 : List Nat :=
  [0x8e1f, 0x8e3b, 0x8e51, 0x8e57, 0x8e73, 0x8e75, 0x8e8f, 0x8e97, 0x8e9b, 0x8ea1, 0x8ebf, 0x8ec1, 0x8ed3, 0x8edf, 0x8ee5, 0x8efb, 0x8f0f, 0x8f27, 0x8f2b, 0x8f39, 0x8f41, 0x8f53, 0x8f55, 0x8f65, 0x8f77, 0x8f7d, 0x8fa5, 0x8fb7, 0x8fbd, 0x8fc9, 0x8fd1, 0x8fe1, 0x8fe7, 0x900b, 0x9019, 0x901f, 0x9025, 0x9037, 0x903d, 0x9043, 0x9057, 0x9061, 0x906d, 0x9075, 0x9089, 0x9091, 0x909b, 0x909d, 0x90ad, 0x90e3, 0x9105, 0x9109, 0x910f, 0x9117, 0x911b, 0x911d, 0x9141, 0x914d, 0x9177, 0x917b, 0x9199, 0x91a3, 0x91a9, 0x91b1, 0x91bd, 0x91cf, 0x91e1, 0x9203, 0x9211, 0x921b, 0x9221, 0x9227, 0x9233, 0x923f, 0x924d, 0x9253, 0x925f, 0x927b, 0x9287, 0x9295, 0x92a3, 0x92b7, 0x92c9, 0x92dd, 0x92f5, 0x92f9, 0x9313, 0x9331, 0x9337, 0x9345, 0x9349, 0x9357, 0x9373, 0x937f, 0x9383, 0x939d, 0x93a1, 0x93b5, 0x93cb, 0x93df, 0x93ef, 0x93f1, 0x93fb, 0x940f, 0x942b, 0x942d, 0x9435, 0x944b, 0x9453, 0x9477, 0x947d, 0x948b, 0x9493, 0x9499, 0x94a5, 0x94a9, 0x94bb, 0x94c5, 0x94d7, 0x94db]

/-- gf2e.c:82, `_irreducible_polynomials_degree_15`, part 3. -/
def irredT15_3 : List Nat :=
  [0x94e1, 0x94e7, 0x94f5, 0x94ff, 0x9507, 0x9515, 0x9529, 0x9531, 0x953d, 0x9545, 0x9561, 0x956b, 0x9589, 0x959b, 0x95ad, 0x95cd, 0x95df, 0x95e3, 0x95e9, 0x9613, 0x9615, 0x962f, 0x9631, 0x9637, 0x963d, 0x9643, 0x965d, 0x9667, 0x9679, 0x9697, 0x96ad, 0x96c1, 0x96cb, 0x96d3, 0x96df, 0x96ef, 0x96fb, 0x9705, 0x972b, 0x9735, 0x9739, 0x974d, 0x9763, 0x9795, 0x979f, 0x97a3, 0x97a5, 0x97a9, 0x97b1, 0x97db, 0x97dd, 0x97e1, 0x97f3, 0x97ff, 0x9809, 0x9821, 0x982d, 0x9847, 0x9895, 0x9899, 0x98af, 0x98bb, 0x98c3, 0x98c5, 0x98d7, 0x98dd, 0x98e7, 0x98f3, 0x98f9, 0x990b, 0x9919, 0x9925, 0x9929, 0x992f, 0x9937, 0x9943, 0x9945, 0x995b, 0x996d, 0x997f, 0x9989, 0x9991, 0x999b, 0x99b9, 0x99bf, 0x99c1, 0x99cb, 0x99d5, 0x99e3, 0x99e5, 0x9a25, 0x9a31, 0x9a4f, 0x9a57, 0x9a5b, 0x9a5d, 0x9a61, 0x9a6d, 0x9a79, 0x9a7f, 0x9a85, 0x9a97, 0x9a9d, 0x9aab, 0x9ab9, 0x9ac7, 0x9acb, 0x9ae3, 0x9afb, 0x9b11, 0x9b1b, 0x9b2d, 0x9b33, 0x9b41, 0x9b53, 0x9b5f, 0x9b6f, 0x9b77, 0x9b7d, 0x9b87]

/-- gf2e.c:82, `_irreducible_polynomials_degree_15`, part 4. -/
def irredT15_4 : List Nat :=
  [0x9b8b, 0x9b93, 0x9bb7, 0x9bbd, 0x9bd1, 0x9beb, 0x9bf9, 0x9bff, 0x9c15, 0x9c1f, 0x9c2f, 0x9c3b, 0x9c3d, 0x9c51, 0x9c5d, 0x9c67, 0x9c73, 0x9c75, 0x9c79, 0x9c85, 0x9cbf, 0x9cc7, 0x9cd5, 0x9ce5, 0x9ce9, 0x9cf1, 0x9cf7, 0x9d03, 0x9d55, 0x9d59, 0x9d63, 0x9d77, 0x9d81, 0x9d8b, 0x9d99, 0x9d9f, 0x9da5, 0x9dbd, 0x9e03, 0x9e11, 0x9e17, 0x9e21, 0x9e27, 0x9e39, 0x9e47, 0x9e55, 0x9e59, 0x9e5f, 0x9e63, 0x9e69, 0x9e81, 0x9e9f, 0x9ea3, 0x9eed, 0x9ef3, 0x9f0b, 0x9f13, 0x9f19, 0x9f23, 0x9f2f, 0x9f49, 0x9f4f, 0x9f67, 0x9f9b, 0x9fad, 0x9fb3, 0x9fb5, 0x9fcd, 0x9fd9, 0x9ff7, 0xa00b, 0xa015, 0xa023, 0xa025, 0xa02f, 0xa043, 0xa05b, 0xa05d, 0xa067, 0xa06b, 0xa06d, 0xa07f, 0xa089, 0xa091, 0xa0a7, 0xa0b5, 0xa0cd, 0xa0df, 0xa0e9, 0xa0fb, 0xa103, 0xa10f, 0xa11d, 0xa121, 0xa127, 0xa133, 0xa135, 0xa139, 0xa147, 0xa159, 0xa16f, 0xa17b, 0xa181, 0xa19f, 0xa1b1, 0xa1c5, 0xa1cf, 0xa1e1, 0xa20f, 0xa21d, 0xa22d, 0xa235, 0xa241, 0xa247, 0xa255, 0xa263, 0xa26f, 0xa299, 0xa2a9, 0xa2bb]

/-- gf2e.c:82, `_irreducible_polynomials_degree_15`, part 5. -/
def irredT15_5 : List Nat :=
  [0xa2bd, 0xa2c5, 0xa2c9, 0xa2d7, 0xa2db, 0xa2ed, 0xa307, 0xa30b, 0xa30d, 0xa319, 0xa31f, 0xa323, 0xa329, 0xa345, 0xa36b, 0xa373, 0xa385, 0xa38f, 0xa397, 0xa3a1, 0xa3b3, 0xa3c1, 0xa3cd, 0xa3d5, 0xa403, 0xa405, 0xa409, 0xa411, 0xa453, 0xa459, 0xa465, 0xa481, 0xa487, 0xa48b, 0xa495, 0xa499, 0xa4a5, 0xa4af, 0xa4b1, 0xa4bd, 0xa4c3, 0xa4db, 0xa4eb, 0xa4ed, 0xa501, 0xa523, 0xa525, 0xa529, 0xa54f, 0xa573, 0xa583, 0xa5a7, 0xa5b9, 0xa5c7, 0xa5cd, 0xa5e9, 0xa5f1, 0xa5fb, 0xa613, 0xa625, 0xa62f, 0xa637, 0xa63d, 0xa651, 0xa661, 0xa673, 0xa691, 0xa69b, 0xa69d, 0xa6c7, 0xa6f1, 0xa6fd, 0xa71b, 0xa72b, 0xa739, 0xa75f, 0xa771, 0xa78d, 0xa799, 0xa7b1, 0xa7bb, 0xa7bd, 0xa7cf, 0xa7d1, 0xa7dd, 0xa7e7, 0xa805, 0xa82b, 0xa833, 0xa839, 0xa84b, 0xa84d, 0xa855, 0xa869, 0xa86f, 0xa87d, 0xa881, 0xa893, 0xa89f, 0xa8a3, 0xa8a9, 0xa8b7, 0xa8cf, 0xa8dd, 0xa8e1, 0xa8eb, 0xa90b, 0xa913, 0xa919, 0xa925, 0xa949, 0xa975, 0xa991, 0xa9a7, 0xa9ad, 0xa9bf, 0xa9c1, 0xa9e9, 0xa9ef, 0xa9f7]

/-- gf2e.c:82, `_irreducible_polynomials_degree_15`, part 6. -/
def irredT15_6 : List Nat :=
  [0xaa0d, 0xaa15, 0xaa2f, 0xaa31, 0xaa43, 0xaa45, 0xaa4f, 0xaa51, 0xaa61, 0xaa79, 0xaa9d, 0xaaab, 0xaaad, 0xaab3, 0xaab9, 0xaad3, 0xaadf, 0xaaf1, 0xab03, 0xab0f, 0xab1d, 0xab35, 0xab39, 0xab47, 0xab63, 0xab7d, 0xab81, 0xab8b, 0xab99, 0xabbb, 0xabc5, 0xabd1, 0xabd7, 0xabdb, 0xabe7, 0xabf3, 0xac01, 0xac07, 0xac0d, 0xac13, 0xac29, 0xac37, 0xac3b, 0xac45, 0xac5b, 0xac6d, 0xac73, 0xac7f, 0xac85, 0xac8f, 0xac97, 0xacc7, 0xacd5, 0xacdf, 0xace9, 0xacfd, 0xad05, 0xad11, 0xad1b, 0xad21, 0xad4b, 0xad4d, 0xad6f, 0xada3, 0xadaf, 0xadc9, 0xaddd, 0xade7, 0xadeb, 0xadf9, 0xae09, 0xae1d, 0xae2d, 0xae39, 0xae3f, 0xae4d, 0xae5f, 0xae63, 0xae71, 0xae77, 0xae7b, 0xae8d, 0xae95, 0xaea3, 0xaebb, 0xaed7, 0xaedd, 0xaee7, 0xaef5, 0xaf01, 0xaf13, 0xaf1f, 0xaf29, 0xaf2f, 0xaf3b, 0xaf43, 0xaf49, 0xaf67, 0xaf75, 0xaf8f, 0xaf9d, 0xafab, 0xafc1, 0xafd3, 0xafe3, 0xaff7, 0xaffd, 0xb00f, 0xb01b, 0xb02d, 0xb035, 0xb03f, 0xb055, 0xb077, 0xb08d, 0xb093, 0xb0af, 0xb0c3, 0xb0c5, 0xb0d1]

/-- gf2e.c:82, `_irreducible_polynomials_degree_15`, part 7. -/
def irredT15_7 : List Nat :=
  [0xb0e1, 0xb0f3, 0xb107, 0xb10b, 0xb10d, 0xb13d, 0xb157, 0xb15d, 0xb175, 0xb18f, 0xb197, 0xb19d, 0xb1a1, 0xb1c7, 0xb1df, 0xb1e5, 0xb20b, 0xb213, 0xb215, 0xb243, 0xb249, 0xb24f, 0xb275, 0xb27f, 0xb289, 0xb29b, 0xb2b5, 0xb2c1, 0xb2df, 0xb2e9, 0xb2ef, 0xb2f7, 0xb305, 0xb317, 0xb327, 0xb363, 0xb37b, 0xb381, 0xb393, 0xb3a5, 0xb3a9, 0xb3b1, 0xb3b7, 0xb3c5, 0xb3d7, 0xb3db, 0xb3dd, 0xb3f9, 0xb401, 0xb40d, 0xb419, 0xb41f, 0xb429, 0xb443, 0xb445, 0xb457, 0xb46d, 0xb475, 0xb47f, 0xb4a7, 0xb4bf, 0xb4d9, 0xb4ef, 0xb4f7, 0xb509, 0xb51d, 0xb533, 0xb53f, 0xb547, 0xb553, 0xb555, 0xb569, 0xb577, 0xb57b, 0xb595, 0xb5a9, 0xb5bb, 0xb5c3, 0xb5d7, 0xb5e1, 0xb5e7, 0xb5eb, 0xb5f9, 0xb605, 0xb609, 0xb617, 0xb61b, 0xb621, 0xb627, 0xb62d, 0xb633, 0xb635, 0xb64b, 0xb659, 0xb67b, 0xb681, 0xb68b, 0xb699, 0xb6af, 0xb6b1, 0xb6d1, 0xb6e7, 0xb6eb, 0xb707, 0xb71f, 0xb725, 0xb745, 0xb757, 0xb75b, 0xb76b, 0xb779, 0xb783, 0xb791, 0xb797, 0xb79d, 0xb7a1, 0xb7b3, 0xb7cb, 0xb7fd, 0xb81f]

/-- gf2e.c:82, `_irreducible_polynomials_degree_15`, part 8. -/
def irredT15_8 : List Nat :=
  [0xb845, 0xb84f, 0xb861, 0xb875, 0xb885, 0xb889, 0xb89d, 0xb8a1, 0xb8ad, 0xb8bf, 0xb8d3, 0xb8d5, 0xb8fb, 0xb903, 0xb909, 0xb91d, 0xb927, 0xb92b, 0xb947, 0xb955, 0xb959, 0xb965, 0xb977, 0xb98d, 0xb9af, 0xb9bb, 0xb9c3, 0xb9c9, 0xb9d1, 0xb9e1, 0xb9ed, 0xb9f3, 0xb9f5, 0xba05, 0xba0f, 0xba11, 0xba2b, 0xba39, 0xba59, 0xba69, 0xba6f, 0xba81, 0xba87, 0xba8d, 0xba93, 0xbab7, 0xbad7, 0xbaf3, 0xbaff, 0xbb01, 0xbb07, 0xbb15, 0xbb19, 0xbb23, 0xbb3d, 0xbb43, 0xbb49, 0xbb4f, 0xbb51, 0xbb5b, 0xbb67, 0xbb75, 0xbb91, 0xbbb5, 0xbbbf, 0xbbcb, 0xbbcd, 0xbbe5, 0xbbe9, 0xbc09, 0xbc33, 0xbc39, 0xbc63, 0xbc65, 0xbc69, 0xbc7b, 0xbc8b, 0xbc8d, 0xbc9f, 0xbca9, 0xbcc3, 0xbcd1, 0xbcdd, 0xbd01, 0xbd13, 0xbd25, 0xbd2f, 0xbd37, 0xbd45, 0xbd67, 0xbd7f, 0xbd83, 0xbd89, 0xbdb9, 0xbdc1, 0xbdd3, 0xbdd9, 0xbde5, 0xbdf1, 0xbe07, 0xbe15, 0xbe23, 0xbe29, 0xbe37, 0xbe57, 0xbe5b, 0xbe61, 0xbe6b, 0xbe7f, 0xbe83, 0xbe91, 0xbeab, 0xbed5, 0xbed9, 0xbef1, 0xbf17, 0xbf21, 0xbf27, 0xbf33, 0xbf35]

/-- gf2e.c:82, `_irreducible_polynomials_degree_15`, part 9. -/
def irredT15_9 : List Nat :=
  [0xbf53, 0xbf65, 0xbf81, 0xbf8b, 0xbfa3, 0xbfb7, 0xbfc3, 0xbfdb, 0xbfed, 0xbff5, 0xbfff, 0xc001, 0xc007, 0xc013, 0xc01f, 0xc025, 0xc049, 0xc073, 0xc079, 0xc085, 0xc091, 0xc097, 0xc09d, 0xc0a7, 0xc0b9, 0xc0cb, 0xc0d5, 0xc0e3, 0xc0fb, 0xc111, 0xc121, 0xc133, 0xc13f, 0xc14b, 0xc15f, 0xc16f, 0xc177, 0xc17b, 0xc17d, 0xc193, 0xc1a5, 0xc1bd, 0xc1c3, 0xc1c9, 0xc1db, 0xc1e7, 0xc1ed, 0xc205, 0xc209, 0xc217, 0xc22d, 0xc24d, 0xc253, 0xc255, 0xc269, 0xc299, 0xc2b1, 0xc2cf, 0xc2d1, 0xc2dd, 0xc2f5, 0xc301, 0xc30d, 0xc319, 0xc325, 0xc32f, 0xc33d, 0xc357, 0xc35b, 0xc361, 0xc373, 0xc383, 0xc39b, 0xc39d, 0xc3ab, 0xc3ad, 0xc3bf, 0xc3c7, 0xc3e3, 0xc3ef, 0xc3fd, 0xc405, 0xc421, 0xc433, 0xc447, 0xc44b, 0xc45f, 0xc46f, 0xc47d, 0xc493, 0xc49f, 0xc4a5, 0xc4b7, 0xc4c5, 0xc4d7, 0xc4dd, 0xc4eb, 0xc4f9, 0xc4ff, 0xc50b, 0xc515, 0xc52f, 0xc531, 0xc549, 0xc55b, 0xc575, 0xc579, 0xc589, 0xc59b, 0xc5a1, 0xc5b3, 0xc5b5, 0xc5bf, 0xc5cb, 0xc5df, 0xc5e9, 0xc5ef, 0xc5fd, 0xc62f, 0xc631]

/-- gf2e.c:82, `_irreducible_polynomials_degree_15`, part 10. -/
def irredT15_10 : List Nat :=
  [0xc63d, 0xc645, 0xc651, 0xc66b, 0xc675, 0xc679, 0xc68f, 0xc697, 0xc6ab, 0xc6b3, 0xc6b9, 0xc6c1, 0xc6c7, 0xc6cd, 0xc6d5, 0xc6e3, 0xc6e9, 0xc6fb, 0xc703, 0xc709, 0xc741, 0xc753, 0xc759, 0xc763, 0xc777, 0xc799, 0xc79f, 0xc7a9, 0xc7c3, 0xc7d7, 0xc7db, 0xc7f5, 0xc803, 0xc81b, 0xc835, 0xc841, 0xc84d, 0xc85f, 0xc865, 0xc869, 0xc895, 0xc8bd, 0xc8c9, 0xc8f5, 0xc8f9, 0xc8ff, 0xc901, 0xc90d, 0xc915, 0xc91f, 0xc923, 0xc929, 0xc931, 0xc937, 0xc93b, 0xc95b, 0xc95d, 0xc961, 0xc97f, 0xc983, 0xc98f, 0xc9ab, 0xc9c7, 0xc9cb, 0xc9cd, 0xc9d9, 0xca25, 0xca29, 0xca2f, 0xca43, 0xca49, 0xca67, 0xca8f, 0xcaad, 0xcabf, 0xcad9, 0xcae3, 0xcaef, 0xcaf1, 0xcafd, 0xcb17, 0xcb1b, 0xcb1d, 0xcb2b, 0xcb3f, 0xcb55, 0xcb69, 0xcb71, 0xcb7b, 0xcb87, 0xcbbd, 0xcbd7, 0xcbe7, 0xcbf5, 0xcc07, 0xcc15, 0xcc23, 0xcc3d, 0xcc49, 0xcc5b, 0xcc6d, 0xcc7f, 0xcc83, 0xcc85, 0xcc9b, 0xcca1, 0xcca7, 0xccad, 0xccb3, 0xccc1, 0xccd9, 0xccf7, 0xccfb, 0xccfd, 0xcd11, 0xcd2b, 0xcd33, 0xcd55, 0xcd63, 0xcd6f]

/-- gf2e.c:82, `_irreducible_polynomials_degree_15`, part 11. -/
def irredT15_11 : List Nat :=
  [0xcd87, 0xcd9f, 0xcda3, 0xcdb7, 0xcdc5, 0xcdcf, 0xcdd7, 0xcde1, 0xcdeb, 0xcded, 0xcdf9, 0xcdff, 0xce03, 0xce11, 0xce27, 0xce35, 0xce39, 0xce65, 0xce6f, 0xce71, 0xce9f, 0xcea5, 0xcebb, 0xcec3, 0xcec5, 0xcec9, 0xced1, 0xced7, 0xcef3, 0xceff, 0xcf0d, 0xcf19, 0xcf1f, 0xcf2f, 0xcf5d, 0xcf61, 0xcf6b, 0xcf73, 0xcf79, 0xcf8f, 0xcf9b, 0xcf9d, 0xcfa1, 0xcfab, 0xcfc7, 0xcfd5, 0xcfe9, 0xcff7, 0xd005, 0xd009, 0xd03f, 0xd047, 0xd04d, 0xd071, 0xd077, 0xd087, 0xd08b, 0xd08d, 0xd095, 0xd099, 0xd0a3, 0xd0b1, 0xd0c5, 0xd0cf, 0xd0d1, 0xd0d7, 0xd0e1, 0xd0f9, 0xd10b, 0xd125, 0xd129, 0xd12f, 0xd13d, 0xd151, 0xd15b, 0xd16d, 0xd19b, 0xd1b9, 0xd1bf, 0xd1c1, 0xd1d5, 0xd1d9, 0xd1ef, 0xd1fd, 0xd207, 0xd215, 0xd21f, 0xd223, 0xd229, 0xd237, 0xd257, 0xd26b, 0xd26d, 0xd283, 0xd28f, 0xd2a1, 0xd2b5, 0xd2cb, 0xd303, 0xd317, 0xd327, 0xd341, 0xd34b, 0xd359, 0xd35f, 0xd369, 0xd377, 0xd37b, 0xd381, 0xd393, 0xd399, 0xd3a3, 0xd3b1, 0xd3c9, 0xd3d1, 0xd3dd, 0xd3e7, 0xd3ed, 0xd415, 0xd429]

/-- gf2e.c:82, `_irreducible_polynomials_degree_15`, part 12. -/
def irredT15_12 : List Nat :=
  [0xd43b, 0xd45d, 0xd461, 0xd46b, 0xd497, 0xd49d, 0xd4ab, 0xd4b3, 0xd4bf, 0xd4c1, 0xd4d3, 0xd4e5, 0xd4e9, 0xd4f1, 0xd50f, 0xd51b, 0xd527, 0xd52b, 0xd547, 0xd555, 0xd559, 0xd563, 0xd57d, 0xd593, 0xd5b7, 0xd5c3, 0xd5e1, 0xd5e7, 0xd5f3, 0xd5f5, 0xd605, 0xd627, 0xd62b, 0xd64b, 0xd65f, 0xd663, 0xd66f, 0xd67d, 0xd687, 0xd6a9, 0xd6b7, 0xd6c5, 0xd6d7, 0xd6e1, 0xd6ed, 0xd6f3, 0xd715, 0xd723, 0xd725, 0xd731, 0xd767, 0xd76d, 0xd77f, 0xd7ad, 0xd7b3, 0xd7b5, 0xd7bf, 0xd7d9, 0xd7f7, 0xd7fb, 0xd80d, 0xd813, 0xd849, 0xd857, 0xd86d, 0xd889, 0xd88f, 0xd89b, 0xd8a7, 0xd8ab, 0xd8b5, 0xd8c1, 0xd8c7, 0xd8d3, 0xd8d9, 0xd8e5, 0xd909, 0xd91b, 0xd933, 0xd941, 0xd947, 0xd94d, 0xd95f, 0xd965, 0xd971, 0xd98b, 0xd999, 0xd99f, 0xd9a3, 0xd9a9, 0xd9b1, 0xd9c3, 0xd9d7, 0xd9f3, 0xd9f9, 0xda05, 0xda17, 0xda27, 0xda33, 0xda35, 0xda3f, 0xda59, 0xda7d, 0xda8b, 0xda93, 0xda99, 0xdaa3, 0xdab1, 0xdac3, 0xdadd, 0xdaed, 0xdb07, 0xdb1f, 0xdb25, 0xdb29, 0xdb3b, 0xdb45, 0xdb4f, 0xdb61, 0xdb83]

/-- gf2e.c:82, `_irreducible_polynomials_degree_15`, part 13. -/
def irredT15_13 : List Nat :=
  [0xdb91, 0xdba1, 0xdbc7, 0xdbcd, 0xdbd5, 0xdbdf, 0xdbe3, 0xdbe9, 0xdbef, 0xdbfb, 0xdbfd, 0xdc11, 0xdc2b, 0xdc35, 0xdc39, 0xdc41, 0xdc6f, 0xdc71, 0xdc93, 0xdc9f, 0xdcaf, 0xdcd1, 0xdcd7, 0xdcdb, 0xdcf5, 0xdd19, 0xdd29, 0xdd31, 0xdd45, 0xdd57, 0xdd67, 0xdd73, 0xdd75, 0xdd9d, 0xddad, 0xddc1, 0xddd5, 0xdde5, 0xddf7, 0xddfb, 0xde07, 0xde2f, 0xde3d, 0xde49, 0xde4f, 0xde51, 0xde6d, 0xde75, 0xde83, 0xde85, 0xde89, 0xdea1, 0xdead, 0xdecb, 0xdecd, 0xded3, 0xdf03, 0xdf05, 0xdf17, 0xdf1d, 0xdf21, 0xdf33, 0xdf59, 0xdf63, 0xdf69, 0xdf6f, 0xdf71, 0xdfa5, 0xdfbb, 0xdfc9, 0xdfdb, 0xdfeb, 0xe003, 0xe00f, 0xe011, 0xe033, 0xe035, 0xe047, 0xe04b, 0xe05f, 0xe07b, 0xe07d, 0xe08d, 0xe09f, 0xe0a9, 0xe0b1, 0xe0b7, 0xe0c5, 0xe0d7, 0xe0db, 0xe0dd, 0xe0ed, 0xe0ff, 0xe101, 0xe10b, 0xe125, 0xe131, 0xe149, 0xe14f, 0xe151, 0xe15d, 0xe167, 0xe16b, 0xe17f, 0xe1b3, 0xe1d3, 0xe1d9, 0xe1ef, 0xe207, 0xe20b, 0xe219, 0xe223, 0xe231, 0xe245, 0xe24f, 0xe267, 0xe279, 0xe285, 0xe28f, 0xe29b]

/-- gf2e.c:82, `_irreducible_polynomials_degree_15`, part 14. -/
def irredT15_14 : List Nat :=
  [0xe29d, 0xe2a1, 0xe2ab, 0xe2ad, 0xe2bf, 0xe2c1, 0xe2d5, 0xe30f, 0xe311, 0xe31b, 0xe335, 0xe339, 0xe359, 0xe363, 0xe365, 0xe377, 0xe38d, 0xe393, 0xe39f, 0xe3a5, 0xe3af, 0xe3b7, 0xe3c3, 0xe3db, 0xe3f3, 0xe3ff, 0xe41f, 0xe431, 0xe449, 0xe45b, 0xe46b, 0xe46d, 0xe473, 0xe479, 0xe485, 0xe491, 0xe497, 0xe49d, 0xe4a1, 0xe4ab, 0xe4cb, 0xe4cd, 0xe4df, 0xe4f1, 0xe4fd, 0xe503, 0xe505, 0xe517, 0xe51b, 0xe52d, 0xe533, 0xe581, 0xe595, 0xe5a5, 0xe5af, 0xe5e7, 0xe605, 0xe621, 0xe639, 0xe63f, 0xe647, 0xe653, 0xe669, 0xe687, 0xe6bb, 0xe6bd, 0xe6d7, 0xe6dd, 0xe6eb, 0xe6f5, 0xe6f9, 0xe701, 0xe719, 0xe729, 0xe76d, 0xe775, 0xe783, 0xe78f, 0xe7a7, 0xe7ab, 0xe7ad, 0xe7b5, 0xe7cb, 0xe7d3, 0xe7d5, 0xe7e5, 0xe7f1, 0xe7f7, 0xe801, 0xe82f, 0xe843, 0xe84f, 0xe851, 0xe85b, 0xe86d, 0xe879, 0xe889, 0xe891, 0xe8a7, 0xe8bf, 0xe8c1, 0xe8cb, 0xe8cd, 0xe8d3, 0xe8fb, 0xe8fd, 0xe903, 0xe90f, 0xe921, 0xe927, 0xe92b, 0xe935, 0xe959, 0xe95f, 0xe963, 0xe969, 0xe971, 0xe98d, 0xe9b7, 0xe9c5]

/-- gf2e.c:82, `_irreducible_polynomials_degree_15`, part 15. -/
def irredT15_15 : List Nat :=
  [0xe9cf, 0xe9d7, 0xe9ed, 0xea09, 0xea1b, 0xea2d, 0xea4b, 0xea59, 0xea71, 0xea7d, 0xea81, 0xea8d, 0xeabb, 0xeac3, 0xeac9, 0xead7, 0xeaed, 0xeaff, 0xeb07, 0xeb0b, 0xeb19, 0xeb23, 0xeb29, 0xeb3b, 0xeb45, 0xeb57, 0xeb5d, 0xeb67, 0xeb6b, 0xeb73, 0xeb75, 0xeb97, 0xeb9b, 0xebad, 0xebb3, 0xebcd, 0xebd3, 0xebd5, 0xebe3, 0xec09, 0xec11, 0xec21, 0xec35, 0xec4b, 0xec5f, 0xec65, 0xec69, 0xec7d, 0xec93, 0xec99, 0xecaf, 0xecb7, 0xecbd, 0xecc9, 0xeccf, 0xecff, 0xed07, 0xed15, 0xed23, 0xed37, 0xed49, 0xed5d, 0xed61, 0xed6b, 0xed97, 0xeda1, 0xedab, 0xedb3, 0xedc7, 0xedcd, 0xedd9, 0xeddf, 0xedef, 0xedf1, 0xedfd, 0xee01, 0xee0b, 0xee0d, 0xee1f, 0xee29, 0xee75, 0xee83, 0xee89, 0xee9d, 0xeead, 0xeeb9, 0xeec7, 0xeecb, 0xeed9, 0xeee3, 0xeef1, 0xeef7, 0xef0f, 0xef21, 0xef2d, 0xef33, 0xef39, 0xef4d, 0xef77, 0xef95, 0xef9f, 0xefb1, 0xefbb, 0xefe1, 0xefe7, 0xefeb, 0xeff3, 0xeff5, 0xeff9, 0xf007, 0xf00d, 0xf01f, 0xf029, 0xf02f, 0xf045, 0xf05d, 0xf085, 0xf089, 0xf097, 0xf0ab]

/-- gf2e.c:82, `_irreducible_polynomials_degree_15`, part 16. -/
def irredT15_16 : List Nat :=
  [0xf0bf, 0xf0c7, 0xf0d5, 0xf0df, 0xf0f1, 0xf0f7, 0xf111, 0xf11b, 0xf135, 0xf141, 0xf147, 0xf14b, 0xf153, 0xf163, 0xf171, 0xf18d, 0xf193, 0xf1c5, 0xf1e1, 0xf1e7, 0xf1f3, 0xf1f5, 0xf1ff, 0xf217, 0xf21d, 0xf247, 0xf24d, 0xf255, 0xf259, 0xf26f, 0xf27b, 0xf287, 0xf29f, 0xf2a5, 0xf2db, 0xf2dd, 0xf2f9, 0xf2ff, 0xf301, 0xf30b, 0xf315, 0xf32f, 0xf337, 0xf343, 0xf385, 0xf389, 0xf391, 0xf397, 0xf3b3, 0xf3df, 0xf3e5, 0xf405, 0xf40f, 0xf417, 0xf421, 0xf439, 0xf453, 0xf455, 0xf463, 0xf465, 0xf469, 0xf47b, 0xf48b, 0xf499, 0xf4a3, 0xf4b1, 0xf4bd, 0xf4c3, 0xf4cf, 0xf4f3, 0xf4f5, 0xf4f9, 0xf50d, 0xf519, 0xf525, 0xf537, 0xf53b, 0xf551, 0xf561, 0xf56d, 0xf591, 0xf59d, 0xf5a7, 0xf5b5, 0xf5bf, 0xf5c1, 0xf5c7, 0xf601, 0xf615, 0xf61f, 0xf623, 0xf63b, 0xf645, 0xf64f, 0xf65d, 0xf66b, 0xf673, 0xf683, 0xf685, 0xf6b3, 0xf6b5, 0xf6d9, 0xf6ef, 0xf6fb, 0xf721, 0xf72d, 0xf73f, 0xf74d, 0xf753, 0xf769, 0xf76f, 0xf787, 0xf78b, 0xf795, 0xf7a3, 0xf7b1, 0xf7b7, 0xf7c3, 0xf7c9, 0xf7db]

/-- gf2e.c:82, `_irreducible_polynomials_degree_15`, part 17. -/
def irredT15_17 : List Nat :=
  [0xf7ff, 0xf803, 0xf809, 0xf80f, 0xf81d, 0xf827, 0xf82d, 0xf839, 0xf83f, 0xf84b, 0xf86f, 0xf871, 0xf877, 0xf893, 0xf8c5, 0xf8db, 0xf8e1, 0xf8ed, 0xf8f3, 0xf8f5, 0xf907, 0xf915, 0xf923, 0xf93b, 0xf93d, 0xf94f, 0xf951, 0xf973, 0xf979, 0xf985, 0xf99b, 0xf9b3, 0xf9b9, 0xf9c7, 0xf9e3, 0xf9e9, 0xf9f7, 0xfa01, 0xfa07, 0xfa13, 0xfa23, 0xfa37, 0xfa49, 0xfa6b, 0xfa75, 0xfa79, 0xfa7f, 0xfa83, 0xfa97, 0xfa9b, 0xfaa1, 0xfac1, 0xfacb, 0xfad9, 0xfadf, 0xfae5, 0xfb05, 0xfb0f, 0xfb21, 0xfb27, 0xfb35, 0xfb4d, 0xfb55, 0xfb5f, 0xfb69, 0xfb71, 0xfb81, 0xfb8d, 0xfba3, 0xfba9, 0xfbb7, 0xfbc9, 0xfbcf, 0xfbdb, 0xfbe1, 0xfc0b, 0xfc0d, 0xfc1f, 0xfc49, 0xfc5b, 0xfc67, 0xfc75, 0xfc83, 0xfcad, 0xfcd3, 0xfcef, 0xfd0f, 0xfd17, 0xfd1d, 0xfd2b, 0xfd2d, 0xfd39, 0xfd47, 0xfd53, 0xfd71, 0xfd8b, 0xfd95, 0xfd99, 0xfda3, 0xfdaf, 0xfdb1, 0xfdc3, 0xfddd, 0xfde1, 0xfdeb, 0xfe05, 0xfe2d, 0xfe33, 0xfe35, 0xfe41, 0xfe4d, 0xfe59, 0xfe5f, 0xfe7d, 0xfe87, 0xfe93, 0xfe99, 0xfeb1, 0xfebd, 0xfec9]

/-- gf2e.c:82, `_irreducible_polynomials_degree_15`, part 18. -/
def irredT15_18 : List Nat :=
  [0xfeeb, 0xfeff, 0xff01, 0xff07, 0xff13, 0xff23, 0xff29, 0xff37, 0xff4f, 0xff57, 0xff5d, 0xff61, 0xff73, 0xff7f, 0xff8f, 0xff91, 0xffb3, 0xffc7, 0xffd9, 0xffe9, 0xffef, 0xfffd]

/-- gf2e.c:82, `_irreducible_polynomials_degree_15[1..]`. -/
def irredT15 : List Nat :=
  irredT15_0 ++ (irredT15_1 ++ (irredT15_2 ++ (irredT15_3 ++ (irredT15_4 ++ (irredT15_5 ++ (irredT15_6 ++ (irredT15_7 ++ (irredT15_8 ++ (irredT15_9 ++ (irredT15_10 ++ (irredT15_11 ++ (irredT15_12 ++ (irredT15_13 ++ (irredT15_14 ++ (irredT15_15 ++ (irredT15_16 ++ (irredT15_17 ++ (irredT15_18))))))))))))))))))

/-- gf2e.c:83, `_irreducible_polynomials_degree_16`, part 0. -/
def irredT16_0 : List Nat :=
  [0x1002b, 0x1002d, 0x10039, 0x1003f, 0x10047, 0x10053, 0x1008d, 0x100bd, 0x100d7, 0x100f5, 0x10129, 0x1012f, 0x1013b, 0x1013d, 0x1014f, 0x1015d, 0x10173, 0x10175, 0x1018f, 0x10197, 0x101a1, 0x101ad, 0x101bf, 0x101c7, 0x101cd, 0x101d5, 0x101e9, 0x101f7, 0x10215, 0x10219, 0x10225, 0x1022f, 0x1025b, 0x1025d, 0x1026b, 0x1026d, 0x10275, 0x10285, 0x10291, 0x102a1, 0x102b3, 0x102cd, 0x102d3, 0x102e5, 0x102f7, 0x102fb, 0x10317, 0x1031d, 0x10335, 0x10339, 0x1034b, 0x1034d, 0x10369, 0x1036f, 0x10371, 0x10387, 0x1038d, 0x1039f, 0x103a3, 0x103bb, 0x103cf, 0x103dd, 0x103ed, 0x103f9, 0x1040b, 0x10425, 0x10429, 0x10457, 0x10461, 0x10467, 0x1046d, 0x10483, 0x10489, 0x10491, 0x104a7, 0x104ad, 0x104b5, 0x104bf, 0x104c1, 0x104fd, 0x10509, 0x10533, 0x10539, 0x10547, 0x10563, 0x10565, 0x10569, 0x10587, 0x105af, 0x105c3, 0x105cf, 0x105d1, 0x105dd, 0x105eb, 0x105f5, 0x105f9, 0x10641, 0x1064b, 0x10653, 0x1065f, 0x1067b, 0x1067d, 0x10687, 0x1068b, 0x106a3, 0x106af, 0x106c3, 0x106c9, 0x106f5, 0x106ff, 0x1076b, 0x1076d, 0x10779, 0x1077f, 0x10783, 0x1078f, 0x10797, 0x107ef, 0x107f1, 0x107fb]

/-- gf2e.c:83, `_irreducible_polynomials_degree_16`, part 1. -/
def irredT16_1 : List Nat :=
  [0x10807, 0x1080b, 0x1080d, 0x10815, 0x1083b, 0x10861, 0x10879, 0x10897, 0x1089d, 0x108ab, 0x108bf, 0x108d5, 0x108df, 0x108e3, 0x108e9, 0x108f1, 0x108fb, 0x10939, 0x10959, 0x10977, 0x1097d, 0x1098b, 0x109a5, 0x109af, 0x109c3, 0x109c5, 0x109e1, 0x109e7, 0x109ed, 0x109f3, 0x10a03, 0x10a11, 0x10a35, 0x10a39, 0x10a5f, 0x10a63, 0x10a71, 0x10a7d, 0x10a81, 0x10a9f, 0x10abb, 0x10ac5, 0x10acf, 0x10add, 0x10ae1, 0x10aff, 0x10b01, 0x10b13, 0x10b15, 0x10b51, 0x10b5d, 0x10b91, 0x10b97, 0x10bb3, 0x10bcd, 0x10bd3, 0x10be5, 0x10bef, 0x10bf7, 0x10bfd, 0x10c0f, 0x10c1d, 0x10c21, 0x10c2b, 0x10c41, 0x10c69, 0x10c71, 0x10c7b, 0x10c8d, 0x10c95, 0x10ca3, 0x10caf, 0x10cbd, 0x10cdd, 0x10ceb, 0x10cf3, 0x10d0d, 0x10d19, 0x10d1f, 0x10d43, 0x10d49, 0x10d83, 0x10d8f, 0x10d91, 0x10d9d, 0x10dad, 0x10db5, 0x10dd3, 0x10de3, 0x10de5, 0x10e23, 0x10e45, 0x10e73, 0x10e7f, 0x10e85, 0x10e91, 0x10e97, 0x10e9d, 0x10ea1, 0x10ea7, 0x10ec7, 0x10ecb, 0x10efd, 0x10f03, 0x10f05, 0x10f09, 0x10f1b, 0x10f21, 0x10f69, 0x10f77, 0x10f87, 0x10f8b, 0x10f95, 0x10f99, 0x10fb1, 0x10fbd, 0x10fcf, 0x10fdb, 0x10fe7, 0x10feb]

/-- gf2e.c:83, `_irreducible_polynomials_degree_16`, part 2. -/
def irredT16_2 : List Nat :=
  [0x1100b, 0x11025, 0x1103d, 0x11043, 0x1104f, 0x1105d, 0x1107f, 0x11083, 0x11085, 0x11097, 0x1109b, 0x110a1, 0x110a7, 0x110b5, 0x1111d, 0x11127, 0x11139, 0x11147, 0x1114d, 0x1115f, 0x1116f, 0x111c9, 0x111db, 0x111dd, 0x111eb, 0x111ed, 0x111f3, 0x111f9, 0x11241, 0x11247, 0x11253, 0x11255, 0x11263, 0x11277, 0x11281, 0x1128b, 0x11293, 0x11299, 0x112a5, 0x112af, 0x112bd, 0x112c5, 0x112d7, 0x112db, 0x112e1, 0x112ed, 0x112f3, 0x112ff, 0x1133b, 0x1133d, 0x11351, 0x11357, 0x11361, 0x1136b, 0x11375, 0x11379, 0x1139d, 0x113a1, 0x113df, 0x113f7, 0x11409, 0x1141b, 0x11433, 0x11435, 0x1144b, 0x1144d, 0x11459, 0x1145f, 0x11487, 0x11493, 0x114af, 0x114b1, 0x114c9, 0x114d1, 0x114ed, 0x114f9, 0x11507, 0x11513, 0x1158f, 0x11591, 0x115a1, 0x115a7, 0x115ab, 0x115d5, 0x115d9, 0x115df, 0x115e3, 0x115fb, 0x1161f, 0x1162f, 0x11637, 0x1163d, 0x11643, 0x11645, 0x11649, 0x11651, 0x11675, 0x11683, 0x1169b, 0x116ab, 0x116d5, 0x116d9, 0x116f7, 0x116fd, 0x1170f, 0x1172d, 0x11733, 0x1173f, 0x11741, 0x11747, 0x1174d, 0x11753, 0x11765, 0x11795, 0x11799, 0x117a3, 0x117a9, 0x117d7, 0x117eb, 0x117f5]

/-- gf2e.c:83, `_irreducible_polynomials_degree_16`, part 3. -/
def irredT16_3 : List Nat :=
  [0x1182b, 0x11833, 0x11855, 0x11863, 0x1186f, 0x11887, 0x1188d, 0x11893, 0x118a9, 0x118b1, 0x118b7, 0x118bb, 0x118cf, 0x118db, 0x118f9, 0x118ff, 0x1190b, 0x11923, 0x11925, 0x11931, 0x11937, 0x1195b, 0x1196b, 0x1196d, 0x11975, 0x11979, 0x119b3, 0x119cb, 0x119cd, 0x119e5, 0x119fb, 0x119fd, 0x11a07, 0x11a0d, 0x11a23, 0x11a31, 0x11a43, 0x11a51, 0x11a57, 0x11a5d, 0x11a6b, 0x11a73, 0x11a79, 0x11a89, 0x11a9b, 0x11abf, 0x11ae3, 0x11ae5, 0x11b09, 0x11b1d, 0x11b27, 0x11b2b, 0x11b47, 0x11b4b, 0x11b55, 0x11b59, 0x11b65, 0x11b7d, 0x11b8b, 0x11b8d, 0x11b93, 0x11baf, 0x11bbb, 0x11bbd, 0x11bc3, 0x11bd7, 0x11be1, 0x11bff, 0x11c07, 0x11c13, 0x11c23, 0x11c29, 0x11c45, 0x11c4f, 0x11c57, 0x11c5d, 0x11c61, 0x11c7f, 0x11c85, 0x11c9d, 0x11ca1, 0x11cb5, 0x11ccb, 0x11ccd, 0x11cd9, 0x11ce9, 0x11cef, 0x11cf1, 0x11d17, 0x11d1b, 0x11d2d, 0x11d3f, 0x11d4b, 0x11d53, 0x11d59, 0x11d5f, 0x11d65, 0x11d69, 0x11d77, 0x11d81, 0x11d87, 0x11dc9, 0x11ded, 0x11dff, 0x11e21, 0x11e3f, 0x11e5f, 0x11e71, 0x11e7b, 0x11e99, 0x11e9f, 0x11ea9, 0x11ebd, 0x11ec3, 0x11ec5, 0x11ecf, 0x11edd, 0x11ee7, 0x11eeb, 0x11ef3]

/-- gf2e.c:83, `_irreducible_polynomials_degree_16`, part 4. -/
def irredT16_4 : List Nat :=
  [0x11f13, 0x11f29, 0x11f2f, 0x11f3b, 0x11f3d, 0x11f57, 0x11f67, 0x11f6d, 0x11f73, 0x11f75, 0x11f83, 0x11f9b, 0x11f9d, 0x11fb9, 0x11fbf, 0x11fc1, 0x1200d, 0x1201f, 0x12025, 0x1203d, 0x12051, 0x12073, 0x1208f, 0x1209b, 0x120ab, 0x120b5, 0x120b9, 0x120c7, 0x120e3, 0x12105, 0x12109, 0x1211b, 0x12141, 0x12153, 0x12163, 0x12169, 0x1217b, 0x12187, 0x12195, 0x121a9, 0x121b1, 0x121c5, 0x121cf, 0x121e1, 0x121e7, 0x121f9, 0x12217, 0x12227, 0x12235, 0x12241, 0x12253, 0x12259, 0x1225f, 0x12269, 0x1227b, 0x1228b, 0x12293, 0x12295, 0x122a5, 0x122af, 0x122b1, 0x122cf, 0x122dd, 0x122e7, 0x122f9, 0x12315, 0x1231f, 0x12325, 0x12329, 0x12345, 0x12357, 0x1236d, 0x12383, 0x12397, 0x123a7, 0x123b9, 0x123e3, 0x123e9, 0x12403, 0x1240f, 0x1242d, 0x12439, 0x1243f, 0x1244b, 0x12453, 0x1248d, 0x12499, 0x1249f, 0x124b7, 0x124c5, 0x124d1, 0x124e7, 0x124ff, 0x12515, 0x12523, 0x12529, 0x1253b, 0x12557, 0x1255d, 0x12561, 0x12573, 0x12579, 0x12585, 0x1259b, 0x125bf, 0x125cd, 0x125e5, 0x125f7, 0x12607, 0x12615, 0x12623, 0x1263d, 0x12651, 0x1265b, 0x1266d, 0x12675, 0x1267f, 0x12683, 0x1269b, 0x126ad]

/-- gf2e.c:83, `_irreducible_polynomials_degree_16`, part 5. -/
def irredT16_5 : List Nat :=
  [0x126c1, 0x126e9, 0x126fb, 0x12711, 0x1272b, 0x12733, 0x12739, 0x12759, 0x12763, 0x12771, 0x12787, 0x127a5, 0x127c5, 0x127d7, 0x127ed, 0x127f3, 0x1281b, 0x1281d, 0x1282d, 0x12841, 0x12847, 0x12871, 0x1287b, 0x1289f, 0x128a3, 0x128a9, 0x128af, 0x128c5, 0x128f5, 0x12901, 0x1290b, 0x12919, 0x1292f, 0x1293b, 0x12943, 0x12945, 0x12949, 0x12973, 0x1297f, 0x12983, 0x12989, 0x1299d, 0x129ad, 0x129b9, 0x129c7, 0x129d5, 0x129f1, 0x129f7, 0x12a25, 0x12a29, 0x12a31, 0x12a3b, 0x12a7f, 0x12a85, 0x12a9d, 0x12aa7, 0x12acd, 0x12ad5, 0x12ad9, 0x12ae3, 0x12ae9, 0x12af1, 0x12b05, 0x12b09, 0x12b27, 0x12b33, 0x12b35, 0x12b53, 0x12b69, 0x12b6f, 0x12b7b, 0x12b7d, 0x12b93, 0x12b99, 0x12baf, 0x12bbd, 0x12bd1, 0x12bdb, 0x12bdd, 0x12bf9, 0x12c07, 0x12c0b, 0x12c1f, 0x12c3b, 0x12c3d, 0x12c43, 0x12c4f, 0x12c5d, 0x12c61, 0x12c6b, 0x12c73, 0x12c79, 0x12c89, 0x12cad, 0x12cb9, 0x12ccd, 0x12cd3, 0x12ce3, 0x12cf7, 0x12cfb, 0x12d09, 0x12d27, 0x12d2d, 0x12d35, 0x12d41, 0x12d63, 0x12d65, 0x12d71, 0x12d77, 0x12d81, 0x12d8b, 0x12d8d, 0x12d9f, 0x12da9, 0x12ddb, 0x12de1, 0x12e0f, 0x12e17, 0x12e21, 0x12e33]

/-- gf2e.c:83, `_irreducible_polynomials_degree_16`, part 6. -/
def irredT16_6 : List Nat :=
  [0x12e35, 0x12e47, 0x12e4b, 0x12e4d, 0x12e5f, 0x12e6f, 0x12e71, 0x12e8d, 0x12ea5, 0x12ea9, 0x12ec5, 0x12ec9, 0x12eeb, 0x12ef9, 0x12eff, 0x12f01, 0x12f07, 0x12f13, 0x12f3d, 0x12f43, 0x12f5b, 0x12f67, 0x12f7f, 0x12f89, 0x12f97, 0x12f9b, 0x12fa7, 0x12fb5, 0x12fbf, 0x12fcb, 0x12fd3, 0x12fdf, 0x13005, 0x13017, 0x13027, 0x1304b, 0x13059, 0x13065, 0x13077, 0x1307b, 0x1307d, 0x13081, 0x13093, 0x130af, 0x130b7, 0x130c3, 0x130db, 0x130dd, 0x130ed, 0x130f5, 0x130f9, 0x13107, 0x1310d, 0x13125, 0x13129, 0x1315d, 0x13161, 0x13173, 0x131a7, 0x131ab, 0x131cd, 0x131d9, 0x131e3, 0x131fb, 0x1322f, 0x13237, 0x1323d, 0x13249, 0x13257, 0x1325b, 0x13267, 0x13275, 0x13291, 0x1329d, 0x132ab, 0x132ad, 0x132b5, 0x132cb, 0x132d9, 0x132ef, 0x132f1, 0x13305, 0x1331b, 0x1332b, 0x13339, 0x13347, 0x13377, 0x1339f, 0x133a9, 0x133c5, 0x133d1, 0x133e1, 0x133eb, 0x133f3, 0x1340b, 0x13415, 0x13419, 0x13425, 0x13443, 0x13451, 0x1347f, 0x13489, 0x1349b, 0x134a7, 0x134bf, 0x134cd, 0x134fd, 0x13505, 0x1351d, 0x13521, 0x13533, 0x13547, 0x1354b, 0x13559, 0x13571, 0x1357d, 0x1359f, 0x135a3, 0x135b1, 0x135c9]

/-- gf2e.c:83, `_irreducible_polynomials_degree_16`, part 7. -/
def irredT16_7 : List Nat :=
  [0x135d7, 0x135f3, 0x1360f, 0x1361b, 0x1361d, 0x13635, 0x1363f, 0x1366f, 0x13671, 0x1368d, 0x13699, 0x136a9, 0x136b7, 0x136c3, 0x136d1, 0x136d7, 0x136ed, 0x13707, 0x1370b, 0x13719, 0x13723, 0x13743, 0x1374f, 0x13751, 0x13775, 0x13779, 0x13797, 0x137ab, 0x137b9, 0x137cd, 0x137d5, 0x137e3, 0x13801, 0x1380d, 0x1381f, 0x13837, 0x13849, 0x1384f, 0x1385b, 0x1385d, 0x1386d, 0x1388f, 0x138a1, 0x138c7, 0x138cb, 0x138cd, 0x138df, 0x138fb, 0x13911, 0x13917, 0x13921, 0x13935, 0x1393f, 0x13941, 0x1394d, 0x13953, 0x1395f, 0x13965, 0x1396f, 0x13977, 0x13981, 0x13999, 0x139a3, 0x139b7, 0x139bd, 0x139c9, 0x139eb, 0x139ff, 0x13a09, 0x13a1b, 0x13a1d, 0x13a2d, 0x13a33, 0x13a4d, 0x13a55, 0x13a63, 0x13a65, 0x13a69, 0x13a77, 0x13a95, 0x13a9f, 0x13aaf, 0x13abb, 0x13abd, 0x13acf, 0x13af3, 0x13af9, 0x13b13, 0x13b29, 0x13b3b, 0x13b3d, 0x13b45, 0x13b5b, 0x13b6d, 0x13b73, 0x13b83, 0x13b89, 0x13b9d, 0x13bcb, 0x13bd3, 0x13bd9, 0x13be3, 0x13bef, 0x13bf1, 0x13c05, 0x13c21, 0x13c27, 0x13c47, 0x13c4b, 0x13c69, 0x13c6f, 0x13c93, 0x13cb1, 0x13cdb, 0x13cf3, 0x13cf9, 0x13cff, 0x13d07, 0x13d13, 0x13d23]

/-- gf2e.c:83, `_irreducible_polynomials_degree_16`, part 8. -/
def irredT16_8 : List Nat :=
  [0x13d31, 0x13d3d, 0x13d43, 0x13d49, 0x13d67, 0x13d6b, 0x13d6d, 0x13d83, 0x13d91, 0x13db3, 0x13db5, 0x13dc1, 0x13dcd, 0x13dd9, 0x13def, 0x13dfb, 0x13e0b, 0x13e19, 0x13e1f, 0x13e31, 0x13e3b, 0x13e43, 0x13e45, 0x13e51, 0x13e57, 0x13e79, 0x13e85, 0x13e89, 0x13e8f, 0x13eb9, 0x13ed3, 0x13edf, 0x13ee9, 0x13efb, 0x13f03, 0x13f09, 0x13f11, 0x13f1d, 0x13f41, 0x13f81, 0x13f8b, 0x13f9f, 0x13fa5, 0x13fa9, 0x13fb7, 0x13fc5, 0x13fdb, 0x13ff5, 0x14019, 0x14075, 0x14079, 0x14085, 0x1409b, 0x1409d, 0x140ad, 0x140cd, 0x140d3, 0x140e3, 0x140f7, 0x14103, 0x14109, 0x1413f, 0x1414b, 0x14153, 0x14159, 0x14163, 0x14193, 0x14199, 0x141a9, 0x141af, 0x141bb, 0x141bd, 0x141e1, 0x141e7, 0x141f3, 0x141ff, 0x14203, 0x14205, 0x14211, 0x1424b, 0x14255, 0x14271, 0x1427b, 0x1427d, 0x14281, 0x14287, 0x142a5, 0x142a9, 0x142b7, 0x142bb, 0x142cf, 0x142e1, 0x142ed, 0x142f9, 0x14307, 0x1430b, 0x14323, 0x14343, 0x14349, 0x1437f, 0x14383, 0x143a7, 0x143bf, 0x143ef, 0x143f7, 0x143fb, 0x1440f, 0x14447, 0x1444d, 0x14471, 0x14477, 0x1447b, 0x1448d, 0x14495, 0x1449f, 0x144a3, 0x144bb, 0x144c5, 0x144d1, 0x144e1]

/-- gf2e.c:83, `_irreducible_polynomials_degree_16`, part 9. -/
def irredT16_9 : List Nat :=
  [0x144f9, 0x1450b, 0x1451f, 0x14529, 0x14537, 0x14543, 0x14573, 0x14589, 0x1458f, 0x1459b, 0x1459d, 0x145b5, 0x145b9, 0x145e5, 0x145f7, 0x145fd, 0x14623, 0x14629, 0x14637, 0x14645, 0x14649, 0x1465d, 0x14673, 0x1468f, 0x14691, 0x146a1, 0x146cb, 0x146d5, 0x146df, 0x146e9, 0x146f1, 0x146fd, 0x14709, 0x14717, 0x14721, 0x1472d, 0x1474b, 0x1475f, 0x1477d, 0x14793, 0x14795, 0x14799, 0x147af, 0x147b7, 0x147c3, 0x147c9, 0x147eb, 0x147f9, 0x14809, 0x14811, 0x1481d, 0x14827, 0x14835, 0x1483f, 0x14841, 0x14847, 0x14859, 0x14881, 0x14893, 0x148a9, 0x148c3, 0x148d7, 0x148db, 0x148f5, 0x148ff, 0x1490b, 0x14915, 0x14919, 0x1492f, 0x14931, 0x14943, 0x1495d, 0x14967, 0x14989, 0x1498f, 0x149df, 0x149e5, 0x149fb, 0x14a13, 0x14a15, 0x14a23, 0x14a2f, 0x14a67, 0x14a6d, 0x14a75, 0x14a85, 0x14a89, 0x14a91, 0x14aa7, 0x14aad, 0x14ab5, 0x14abf, 0x14acb, 0x14adf, 0x14ae9, 0x14af7, 0x14afb, 0x14b03, 0x14b0f, 0x14b21, 0x14b4d, 0x14b63, 0x14b7d, 0x14b87, 0x14b95, 0x14bb7, 0x14bbb, 0x14bc9, 0x14bcf, 0x14bdb, 0x14bdd, 0x14bf3, 0x14bf9, 0x14bff, 0x14c0d, 0x14c19, 0x14c1f, 0x14c67, 0x14c73, 0x14c83]

/-- gf2e.c:83, `_irreducible_polynomials_degree_16`, part 10. -/
def irredT16_10 : List Nat :=
  [0x14c9b, 0x14ca7, 0x14cb9, 0x14cc7, 0x14ccb, 0x14cf7, 0x14cfd, 0x14d0f, 0x14d2d, 0x14d39, 0x14d41, 0x14d4d, 0x14d53, 0x14d5f, 0x14d69, 0x14d71, 0x14d7b, 0x14d8b, 0x14d8d, 0x14db1, 0x14dd1, 0x14de7, 0x14deb, 0x14df3, 0x14e17, 0x14e4b, 0x14e6f, 0x14e77, 0x14e81, 0x14e87, 0x14ea3, 0x14eaf, 0x14eb1, 0x14ebd, 0x14edb, 0x14eeb, 0x14ef5, 0x14eff, 0x14f13, 0x14f25, 0x14f31, 0x14f45, 0x14f49, 0x14f4f, 0x14f57, 0x14f5b, 0x14f61, 0x14f6b, 0x14f6d, 0x14f8f, 0x14fa1, 0x14fc7, 0x14fcd, 0x14fe3, 0x14ffb, 0x14ffd, 0x15003, 0x1500f, 0x15021, 0x15027, 0x1502b, 0x15059, 0x15081, 0x1509f, 0x150a5, 0x150b7, 0x150bb, 0x150c9, 0x150d7, 0x150eb, 0x150ff, 0x15107, 0x15125, 0x15149, 0x1515d, 0x1516d, 0x15175, 0x15183, 0x15189, 0x151a1, 0x151a7, 0x151b3, 0x151b5, 0x151cd, 0x151d3, 0x151df, 0x1520b, 0x1521f, 0x1522f, 0x15245, 0x1525d, 0x15261, 0x1526b, 0x15289, 0x15297, 0x152b3, 0x152b9, 0x152bf, 0x152c7, 0x152d5, 0x152f7, 0x152fb, 0x15303, 0x15309, 0x1531d, 0x15327, 0x15363, 0x1536f, 0x15377, 0x1539f, 0x153a5, 0x153bd, 0x153c5, 0x153d1, 0x153db, 0x153e1, 0x153ed, 0x153f5, 0x1540d, 0x15413]

/-- gf2e.c:83, `_irreducible_polynomials_degree_16`, part 11. -/
def irredT16_11 : List Nat :=
  [0x1541f, 0x15431, 0x15457, 0x1545b, 0x1547f, 0x15483, 0x15485, 0x15491, 0x15497, 0x154b5, 0x154b9, 0x154cb, 0x154cd, 0x154d5, 0x154df, 0x15527, 0x1552d, 0x1554b, 0x15593, 0x155af, 0x155b1, 0x155b7, 0x155cf, 0x155db, 0x155ed, 0x155f5, 0x1560f, 0x15617, 0x15621, 0x1562b, 0x1562d, 0x15647, 0x15653, 0x15655, 0x15687, 0x1568d, 0x15695, 0x1569f, 0x156a9, 0x156af, 0x156c5, 0x156cf, 0x156d1, 0x156f5, 0x15701, 0x1570d, 0x15729, 0x15751, 0x1575b, 0x15767, 0x15783, 0x1579d, 0x157ab, 0x157c7, 0x157d3, 0x157d9, 0x15807, 0x15825, 0x1583d, 0x15851, 0x1585b, 0x1586b, 0x15883, 0x15889, 0x158a1, 0x158b3, 0x158d3, 0x158d9, 0x158df, 0x158e9, 0x158ef, 0x158fb, 0x158fd, 0x1592b, 0x15935, 0x15939, 0x1594b, 0x1594d, 0x15963, 0x15969, 0x15981, 0x1598d, 0x15993, 0x1599f, 0x159a3, 0x159a9, 0x159b7, 0x159cf, 0x159d7, 0x159dd, 0x159eb, 0x159ff, 0x15a09, 0x15a0f, 0x15a11, 0x15a41, 0x15a4b, 0x15a55, 0x15a6f, 0x15a71, 0x15a7d, 0x15a99, 0x15aa5, 0x15ab7, 0x15ad7, 0x15adb, 0x15ae7, 0x15aed, 0x15af3, 0x15b0d, 0x15b15, 0x15b3b, 0x15b45, 0x15b4f, 0x15b57, 0x15b61, 0x15b79, 0x15bab, 0x15bad, 0x15bc7]

/-- gf2e.c:83, `_irreducible_polynomials_degree_16`, part 12. -/
def irredT16_12 : List Nat :=
  [0x15bdf, 0x15be9, 0x15c05, 0x15c2d, 0x15c33, 0x15c4b, 0x15c81, 0x15c8b, 0x15c93, 0x15c99, 0x15ca3, 0x15ca5, 0x15cc9, 0x15cd1, 0x15cdd, 0x15ceb, 0x15d01, 0x15d07, 0x15d0d, 0x15d15, 0x15d1f, 0x15d31, 0x15d37, 0x15d3b, 0x15d4f, 0x15d6b, 0x15d7f, 0x15d91, 0x15dab, 0x15dc7, 0x15dd9, 0x15ddf, 0x15df1, 0x15dfd, 0x15e01, 0x15e0b, 0x15e13, 0x15e19, 0x15e25, 0x15e29, 0x15e37, 0x15e57, 0x15e67, 0x15e73, 0x15e83, 0x15eab, 0x15ead, 0x15ec1, 0x15ecb, 0x15ed5, 0x15ee5, 0x15f2b, 0x15f3f, 0x15f41, 0x15f47, 0x15f55, 0x15f8d, 0x15f95, 0x15fa3, 0x15fbd, 0x15fd1, 0x15fdd, 0x15ff3, 0x15ff9, 0x16009, 0x16017, 0x16021, 0x1602b, 0x16039, 0x1604d, 0x16055, 0x16063, 0x16065, 0x16077, 0x1609f, 0x160a3, 0x160b1, 0x160dd, 0x1610b, 0x16119, 0x16137, 0x1613b, 0x1613d, 0x16143, 0x1615b, 0x16161, 0x16167, 0x16175, 0x1617f, 0x161ad, 0x161b5, 0x161c7, 0x161d3, 0x161d5, 0x161ef, 0x161fd, 0x16201, 0x16213, 0x16231, 0x1623b, 0x16245, 0x16249, 0x1624f, 0x1625d, 0x16261, 0x1626b, 0x16273, 0x1627f, 0x1628f, 0x16297, 0x1629d, 0x162ab, 0x162b3, 0x162d5, 0x162d9, 0x162e9, 0x162fd, 0x16327, 0x1632d, 0x16333]

/-- gf2e.c:83, `_irreducible_polynomials_degree_16`, part 13. -/
def irredT16_13 : List Nat :=
  [0x16335, 0x1634d, 0x16353, 0x16365, 0x16369, 0x1637b, 0x16381, 0x1638b, 0x163a3, 0x163b1, 0x163ed, 0x163f5, 0x16407, 0x1640d, 0x1641f, 0x16423, 0x1643b, 0x16443, 0x16445, 0x16451, 0x1645d, 0x16497, 0x1649b, 0x164ab, 0x164b9, 0x164e9, 0x164f7, 0x16503, 0x1650f, 0x16511, 0x1651b, 0x1652b, 0x16535, 0x16539, 0x1653f, 0x16547, 0x1654b, 0x16565, 0x16577, 0x16581, 0x1658d, 0x16593, 0x165a5, 0x165bb, 0x165d1, 0x165db, 0x165e7, 0x165f3, 0x16603, 0x16605, 0x16617, 0x16627, 0x16639, 0x1664b, 0x16655, 0x16659, 0x16669, 0x16671, 0x16681, 0x166a9, 0x166bb, 0x166d7, 0x16701, 0x16707, 0x16715, 0x16719, 0x1672f, 0x16731, 0x16743, 0x16749, 0x1674f, 0x1676b, 0x16779, 0x167a1, 0x167bf, 0x167cb, 0x167d9, 0x167df, 0x167e5, 0x167f7, 0x16801, 0x1680b, 0x1681f, 0x16829, 0x1683b, 0x16849, 0x16875, 0x1687f, 0x1688f, 0x1689d, 0x168ad, 0x168b9, 0x168c7, 0x168cb, 0x168d3, 0x168d5, 0x16917, 0x1691b, 0x16933, 0x16947, 0x16955, 0x16965, 0x16969, 0x16971, 0x1698d, 0x1699f, 0x169af, 0x169bb, 0x169c5, 0x169cf, 0x169d1, 0x169d7, 0x16a03, 0x16a05, 0x16a1b, 0x16a2d, 0x16a3f, 0x16a41, 0x16a53, 0x16a69]

/-- gf2e.c:83, `_irreducible_polynomials_degree_16`, part 14. -/
def irredT16_14 : List Nat :=
  [0x16a6f, 0x16a77, 0x16a8b, 0x16a99, 0x16aa3, 0x16aa5, 0x16abd, 0x16ac3, 0x16ac9, 0x16acf, 0x16ae7, 0x16af5, 0x16b01, 0x16b0d, 0x16b23, 0x16b29, 0x16b57, 0x16b5b, 0x16b61, 0x16b6b, 0x16b8f, 0x16b9d, 0x16bab, 0x16bb3, 0x16bb5, 0x16bc7, 0x16bef, 0x16bfb, 0x16c03, 0x16c1d, 0x16c39, 0x16c41, 0x16c6f, 0x16c77, 0x16c81, 0x16c93, 0x16ca5, 0x16cb7, 0x16cc9, 0x16ce7, 0x16cf3, 0x16d15, 0x16d31, 0x16d3b, 0x16d43, 0x16d4f, 0x16d79, 0x16d89, 0x16d9d, 0x16db3, 0x16db9, 0x16dbf, 0x16dc1, 0x16dc7, 0x16de5, 0x16df1, 0x16e19, 0x16e2f, 0x16e3d, 0x16e51, 0x16e5d, 0x16e67, 0x16e7f, 0x16e85, 0x16e91, 0x16e97, 0x16e9b, 0x16eb5, 0x16ecb, 0x16ed9, 0x16eef, 0x16efd, 0x16f0f, 0x16f11, 0x16f21, 0x16f2b, 0x16f47, 0x16f55, 0x16f71, 0x16f81, 0x16f87, 0x16f8d, 0x16f95, 0x16fb7, 0x16fc9, 0x16fdb, 0x16fed, 0x16fff, 0x17025, 0x17029, 0x17057, 0x1705b, 0x17061, 0x1706b, 0x1706d, 0x17083, 0x1708f, 0x1709d, 0x170ab, 0x170b3, 0x170b9, 0x170d9, 0x170fd, 0x17103, 0x17111, 0x17117, 0x17127, 0x17133, 0x17159, 0x1715f, 0x1716f, 0x17177, 0x1717b, 0x17181, 0x17195, 0x171b1, 0x171bd, 0x171c3, 0x171dd, 0x171f9]

/-- gf2e.c:83, `_irreducible_polynomials_degree_16`, part 15. -/
def irredT16_15 : List Nat :=
  [0x17205, 0x1720f, 0x1721b, 0x1721d, 0x17221, 0x1722d, 0x1725f, 0x17263, 0x17271, 0x17287, 0x1728b, 0x1728d, 0x17299, 0x172a3, 0x172a9, 0x172af, 0x172cf, 0x172dd, 0x172e1, 0x172e7, 0x17329, 0x1733d, 0x17343, 0x17345, 0x17361, 0x17367, 0x1736d, 0x17373, 0x1738f, 0x17391, 0x1739b, 0x173ad, 0x173b9, 0x173bf, 0x173d5, 0x173f1, 0x17403, 0x17411, 0x17439, 0x17447, 0x1744d, 0x17469, 0x1746f, 0x17471, 0x1747d, 0x17481, 0x17487, 0x1748d, 0x17495, 0x174b1, 0x174b7, 0x174bb, 0x174c5, 0x174d7, 0x174eb, 0x174ed, 0x17501, 0x17513, 0x17515, 0x17519, 0x17523, 0x17525, 0x17549, 0x1755d, 0x17583, 0x17597, 0x1759b, 0x175a1, 0x175a7, 0x175b3, 0x175cb, 0x175fd, 0x17607, 0x1760d, 0x17619, 0x1763b, 0x1763d, 0x17643, 0x17657, 0x17661, 0x17667, 0x17675, 0x17689, 0x1769d, 0x176a1, 0x176ab, 0x176c7, 0x176df, 0x176f1, 0x17711, 0x1771b, 0x1771d, 0x17735, 0x1773f, 0x17741, 0x1774b, 0x17781, 0x1778b, 0x17793, 0x177a5, 0x177a9, 0x177b7, 0x177c3, 0x177f5, 0x17809, 0x17811, 0x17835, 0x1783f, 0x17853, 0x1785f, 0x17869, 0x17877, 0x17899, 0x178c3, 0x178c9, 0x178cf, 0x178d1, 0x178db, 0x178dd, 0x178e7]

/-- gf2e.c:83, `_irreducible_polynomials_degree_16`, part 16. -/
def irredT16_16 : List Nat :=
  [0x178eb, 0x178ed, 0x17901, 0x17907, 0x1790d, 0x17973, 0x17979, 0x1797f, 0x17991, 0x17997, 0x1799d, 0x179ab, 0x179b9, 0x179e9, 0x179ef, 0x179f1, 0x17a01, 0x17a1f, 0x17a57, 0x17a5b, 0x17a61, 0x17a7f, 0x17a91, 0x17aa7, 0x17aab, 0x17aad, 0x17ab9, 0x17ae3, 0x17ae5, 0x17aef, 0x17af1, 0x17af7, 0x17b05, 0x17b1d, 0x17b33, 0x17b39, 0x17b63, 0x17b7b, 0x17b95, 0x17ba9, 0x17bb1, 0x17bbb, 0x17bbd, 0x17be1, 0x17be7, 0x17beb, 0x17bf3, 0x17bf5, 0x17c07, 0x17c19, 0x17c2f, 0x17c37, 0x17c4f, 0x17c5d, 0x17c7f, 0x17c85, 0x17ca1, 0x17cb5, 0x17cbf, 0x17cc1, 0x17ccb, 0x17cd3, 0x17d03, 0x17d21, 0x17d33, 0x17d47, 0x17d59, 0x17d63, 0x17d7b, 0x17d87, 0x17da5, 0x17da9, 0x17db1, 0x17dc5, 0x17dd7, 0x17ddb, 0x17e1d, 0x17e27, 0x17e2b, 0x17e35, 0x17e41, 0x17e4b, 0x17e59, 0x17e65, 0x17e8b, 0x17e8d, 0x17e93, 0x17eaf, 0x17ebb, 0x17ec3, 0x17ec5, 0x17ed1, 0x17ed7, 0x17ee1, 0x17ee7, 0x17eed, 0x17eff, 0x17f0b, 0x17f0d, 0x17f2f, 0x17f31, 0x17f45, 0x17f5d, 0x17f73, 0x17f75, 0x17fa1, 0x17fb3, 0x17fc7, 0x17fd3, 0x17fe3, 0x17fe5, 0x17ffb, 0x18013, 0x18015, 0x18049, 0x1805d, 0x1806d, 0x18085, 0x180a1, 0x180a7]

/-- gf2e.c:83, `_irreducible_polynomials_degree_16`, part 17. -/
def irredT16_17 : List Nat :=
  [0x180ad, 0x180cd, 0x180f7, 0x18103, 0x18105, 0x18117, 0x1811d, 0x1812b, 0x1814d, 0x1816f, 0x1817d, 0x18195, 0x181a3, 0x181a5, 0x181b7, 0x181db, 0x181e1, 0x181f9, 0x18211, 0x1821b, 0x1821d, 0x18227, 0x18235, 0x18241, 0x18255, 0x18265, 0x18277, 0x1828b, 0x18293, 0x1829f, 0x182bb, 0x182c3, 0x182c9, 0x182d1, 0x182e7, 0x182f3, 0x182f5, 0x182ff, 0x18307, 0x18315, 0x18329, 0x1833b, 0x18357, 0x1835d, 0x18361, 0x1836b, 0x18379, 0x18385, 0x18389, 0x183ab, 0x183b3, 0x183b9, 0x183bf, 0x183c1, 0x183d5, 0x183df, 0x183f1, 0x183f7, 0x18411, 0x1841b, 0x18433, 0x1844d, 0x18459, 0x18469, 0x1846f, 0x18477, 0x18493, 0x184af, 0x184b1, 0x184b7, 0x184cf, 0x184d1, 0x184dd, 0x184f9, 0x1850d, 0x18513, 0x18523, 0x18525, 0x18529, 0x18537, 0x18545, 0x1854f, 0x18561, 0x1856d, 0x18579, 0x1857f, 0x18585, 0x1859d, 0x185c7, 0x185cd, 0x185d9, 0x185df, 0x185e9, 0x185fb, 0x1860b, 0x18619, 0x18625, 0x18637, 0x1863d, 0x18657, 0x18683, 0x186ab, 0x186ad, 0x186c1, 0x186d9, 0x186f1, 0x186f7, 0x186fd, 0x1870f, 0x1871d, 0x18721, 0x18733, 0x18741, 0x18753, 0x18787, 0x187af, 0x187b1, 0x187c5, 0x187dd, 0x187f3]

/-- gf2e.c:83, `_irreducible_polynomials_degree_16`, part 18. -/
def irredT16_18 : List Nat :=
  [0x1880f, 0x18833, 0x1884d, 0x1885f, 0x18863, 0x18871, 0x18887, 0x188a5, 0x188b1, 0x188c5, 0x188c9, 0x188d7, 0x188e1, 0x188eb, 0x18913, 0x1892f, 0x18931, 0x18943, 0x18949, 0x1895d, 0x18979, 0x1897f, 0x18985, 0x1899b, 0x189a7, 0x189ad, 0x189cb, 0x189d9, 0x189ef, 0x189fb, 0x18a0d, 0x18a29, 0x18a45, 0x18a4f, 0x18a61, 0x18a67, 0x18a6b, 0x18a73, 0x18a75, 0x18a9d, 0x18aad, 0x18ab3, 0x18ac1, 0x18ae3, 0x18ae5, 0x18b03, 0x18b35, 0x18b39, 0x18b47, 0x18b4b, 0x18b59, 0x18b63, 0x18b77, 0x18b81, 0x18b8d, 0x18b9f, 0x18bb7, 0x18bd1, 0x18bdb, 0x18bf5, 0x18c0d, 0x18c23, 0x18c31, 0x18c7f, 0x18c91, 0x18c97, 0x18c9d, 0x18ca1, 0x18cb9, 0x18ccb, 0x18ce3, 0x18cef, 0x18cfb, 0x18d05, 0x18d09, 0x18d1b, 0x18d27, 0x18d35, 0x18d41, 0x18d69, 0x18d7b, 0x18d7d, 0x18d95, 0x18da3, 0x18da5, 0x18db7, 0x18dbd, 0x18dc9, 0x18dcf, 0x18de7, 0x18e05, 0x18e09, 0x18e1b, 0x18e21, 0x18e3f, 0x18e47, 0x18e63, 0x18e69, 0x18e77, 0x18e87, 0x18ea3, 0x18ea9, 0x18eb1, 0x18ebb, 0x18ebd, 0x18ecf, 0x18f0b, 0x18f19, 0x18f1f, 0x18f2f, 0x18f51, 0x18f57, 0x18f5b, 0x18f61, 0x18f73, 0x18f89, 0x18f9b, 0x18fb9, 0x18fcb, 0x18fd3]

/-- gf2e.c:83, `_irreducible_polynomials_degree_16`, part 19. -/
def irredT16_19 : List Nat :=
  [0x18fd9, 0x18fe5, 0x18fef, 0x18ffd, 0x19003, 0x1900f, 0x1901b, 0x19027, 0x19047, 0x1904b, 0x19055, 0x19071, 0x1908d, 0x190a5, 0x190af, 0x190b7, 0x190d7, 0x190e7, 0x190f5, 0x1910b, 0x1911f, 0x19123, 0x1913b, 0x19143, 0x1914f, 0x19151, 0x19157, 0x1915d, 0x1916b, 0x19179, 0x1919b, 0x191a1, 0x191ab, 0x191b9, 0x191d3, 0x191e5, 0x191e9, 0x191f1, 0x19219, 0x19225, 0x19231, 0x19243, 0x19251, 0x1926d, 0x19275, 0x19279, 0x19283, 0x19289, 0x19291, 0x192a7, 0x192bf, 0x192df, 0x192fd, 0x19305, 0x1930f, 0x19317, 0x19327, 0x19335, 0x1934b, 0x1934d, 0x19355, 0x1937b, 0x1939f, 0x193a9, 0x193b1, 0x193c5, 0x193cf, 0x193db, 0x193dd, 0x193eb, 0x193f3, 0x193ff, 0x19401, 0x19437, 0x1943b, 0x1943d, 0x19449, 0x19457, 0x19473, 0x19489, 0x19491, 0x194a7, 0x194ab, 0x194ad, 0x194c1, 0x194d5, 0x194ef, 0x19505, 0x19509, 0x19517, 0x1951b, 0x1952b, 0x19539, 0x1953f, 0x19547, 0x1955f, 0x19565, 0x19571, 0x1957b, 0x19587, 0x1958b, 0x1958d, 0x195a9, 0x195c3, 0x195d1, 0x195f3, 0x19605, 0x1962d, 0x19635, 0x1965f, 0x19669, 0x19677, 0x1967d, 0x19681, 0x196b7, 0x196db, 0x196e7, 0x196eb, 0x196f9, 0x19707]

/-- gf2e.c:83, `_irreducible_polynomials_degree_16`, part 20. -/
def irredT16_20 : List Nat :=
  [0x1970d, 0x19713, 0x19715, 0x1971f, 0x19737, 0x19761, 0x1977f, 0x19797, 0x197a1, 0x197a7, 0x197ab, 0x197b9, 0x197d5, 0x197e3, 0x197e9, 0x197fd, 0x1980b, 0x19823, 0x1982f, 0x19831, 0x19843, 0x19851, 0x19875, 0x1988f, 0x198b9, 0x198c7, 0x198e9, 0x198fb, 0x1990f, 0x1991d, 0x19927, 0x1992b, 0x1992d, 0x19941, 0x19947, 0x19959, 0x1997d, 0x1998b, 0x1998d, 0x199a9, 0x199bd, 0x199c3, 0x199c9, 0x199d1, 0x199e7, 0x199ff, 0x19a0f, 0x19a1d, 0x19a35, 0x19a6f, 0x19a81, 0x19a8d, 0x19a95, 0x19aa3, 0x19ab7, 0x19abb, 0x19ad7, 0x19b07, 0x19b15, 0x19b31, 0x19b37, 0x19b5b, 0x19b5d, 0x19b6d, 0x19b79, 0x19b7f, 0x19b83, 0x19b9b, 0x19ba1, 0x19bad, 0x19bcb, 0x19bdf, 0x19bef, 0x19bfd, 0x19c09, 0x19c17, 0x19c2b, 0x19c3f, 0x19c53, 0x19c65, 0x19c69, 0x19c8d, 0x19ca3, 0x19cb1, 0x19cc5, 0x19ce1, 0x19ceb, 0x19cf3, 0x19cf5, 0x19d01, 0x19d19, 0x19d29, 0x19d2f, 0x19d3d, 0x19d45, 0x19d49, 0x19d7f, 0x19d8f, 0x19d9d, 0x19db9, 0x19dcb, 0x19de3, 0x19def, 0x19df1, 0x19df7, 0x19dfd, 0x19e07, 0x19e4f, 0x19e57, 0x19e5b, 0x19e61, 0x19e6d, 0x19e73, 0x19e79, 0x19e83, 0x19e91, 0x19ea7, 0x19eb5, 0x19eb9, 0x19ec7]

/-- gf2e.c:83, `_irreducible_polynomials_degree_16`, part 21. -/
def irredT16_21 : List Nat :=
  [0x19ecb, 0x19edf, 0x19eef, 0x19ef1, 0x19efb, 0x19f05, 0x19f11, 0x19f17, 0x19f21, 0x19f4d, 0x19f53, 0x19f59, 0x19f65, 0x19f6f, 0x19f77, 0x19f7b, 0x19f93, 0x19f99, 0x19fa5, 0x19fb7, 0x19fbd, 0x19fc3, 0x19fc9, 0x19ff5, 0x1a011, 0x1a021, 0x1a02d, 0x1a033, 0x1a041, 0x1a059, 0x1a069, 0x1a06f, 0x1a07b, 0x1a095, 0x1a0c3, 0x1a0cf, 0x1a0db, 0x1a0f5, 0x1a0f9, 0x1a107, 0x1a10d, 0x1a113, 0x1a11f, 0x1a125, 0x1a129, 0x1a131, 0x1a137, 0x1a145, 0x1a185, 0x1a197, 0x1a1ab, 0x1a1d9, 0x1a1e3, 0x1a1fd, 0x1a23b, 0x1a275, 0x1a283, 0x1a289, 0x1a291, 0x1a29d, 0x1a2a7, 0x1a2ad, 0x1a2bf, 0x1a2c1, 0x1a2c7, 0x1a2fd, 0x1a31b, 0x1a321, 0x1a32b, 0x1a333, 0x1a347, 0x1a353, 0x1a35f, 0x1a365, 0x1a369, 0x1a377, 0x1a37b, 0x1a38b, 0x1a38d, 0x1a3b1, 0x1a3cf, 0x1a3dd, 0x1a3e1, 0x1a3f9, 0x1a413, 0x1a419, 0x1a449, 0x1a44f, 0x1a451, 0x1a467, 0x1a475, 0x1a479, 0x1a485, 0x1a4b5, 0x1a4bf, 0x1a4c1, 0x1a4cb, 0x1a4cd, 0x1a4e5, 0x1a4e9, 0x1a4f7, 0x1a4fd, 0x1a505, 0x1a517, 0x1a527, 0x1a52b, 0x1a535, 0x1a54d, 0x1a555, 0x1a559, 0x1a571, 0x1a581, 0x1a593, 0x1a5a3, 0x1a5b1, 0x1a5b7, 0x1a5bb, 0x1a5c5, 0x1a5cf, 0x1a5dd]

/-- gf2e.c:83, `_irreducible_polynomials_degree_16`, part 22. -/
def irredT16_22 : List Nat :=
  [0x1a62d, 0x1a639, 0x1a63f, 0x1a64b, 0x1a655, 0x1a663, 0x1a665, 0x1a66f, 0x1a671, 0x1a67d, 0x1a699, 0x1a6a5, 0x1a6b7, 0x1a6c5, 0x1a6e1, 0x1a6ed, 0x1a6f3, 0x1a6f5, 0x1a71f, 0x1a723, 0x1a731, 0x1a757, 0x1a75d, 0x1a767, 0x1a773, 0x1a797, 0x1a7b3, 0x1a7b9, 0x1a7bf, 0x1a7cd, 0x1a7e3, 0x1a7e9, 0x1a801, 0x1a80d, 0x1a815, 0x1a831, 0x1a83b, 0x1a84f, 0x1a857, 0x1a861, 0x1a873, 0x1a8a7, 0x1a8d5, 0x1a8df, 0x1a8ef, 0x1a8fd, 0x1a903, 0x1a917, 0x1a91b, 0x1a933, 0x1a935, 0x1a94b, 0x1a94d, 0x1a953, 0x1a98b, 0x1a999, 0x1a9af, 0x1a9b1, 0x1a9c9, 0x1a9e7, 0x1a9ed, 0x1a9f5, 0x1aa09, 0x1aa0f, 0x1aa1b, 0x1aa1d, 0x1aa21, 0x1aa4d, 0x1aa53, 0x1aa77, 0x1aa7b, 0x1aa8d, 0x1aa99, 0x1aa9f, 0x1aabd, 0x1aac3, 0x1aad1, 0x1aad7, 0x1aadd, 0x1aaf5, 0x1ab0b, 0x1ab13, 0x1ab19, 0x1ab1f, 0x1ab3d, 0x1ab51, 0x1ab57, 0x1ab75, 0x1ab83, 0x1ab8f, 0x1aba7, 0x1abad, 0x1abb5, 0x1abbf, 0x1abd3, 0x1abd5, 0x1abd9, 0x1abef, 0x1ac1d, 0x1ac27, 0x1ac35, 0x1ac47, 0x1ac5f, 0x1ac69, 0x1ac81, 0x1ac8d, 0x1ac95, 0x1aca3, 0x1acb1, 0x1accf, 0x1acd7, 0x1ad13, 0x1ad2f, 0x1ad31, 0x1ad4f, 0x1ad5b, 0x1ad6b, 0x1ad75, 0x1ad79, 0x1ad83]

/-- gf2e.c:83, `_irreducible_polynomials_degree_16`, part 23. -/
def irredT16_23 : List Nat :=
  [0x1ad91, 0x1ada7, 0x1adad, 0x1adc1, 0x1adcd, 0x1addf, 0x1ade5, 0x1adfb, 0x1ae15, 0x1ae23, 0x1ae3d, 0x1ae4f, 0x1ae5d, 0x1ae61, 0x1ae73, 0x1ae75, 0x1ae8f, 0x1ae97, 0x1ae9b, 0x1aebf, 0x1aed3, 0x1aedf, 0x1aee5, 0x1aee9, 0x1aef1, 0x1aefb, 0x1af11, 0x1af35, 0x1af39, 0x1af41, 0x1af65, 0x1af93, 0x1af99, 0x1afaf, 0x1afbd, 0x1afc5, 0x1afd1, 0x1afd7, 0x1afe1, 0x1afff, 0x1b013, 0x1b029, 0x1b03b, 0x1b043, 0x1b051, 0x1b05b, 0x1b07f, 0x1b083, 0x1b09b, 0x1b09d, 0x1b0ab, 0x1b0ad, 0x1b0b9, 0x1b0c7, 0x1b0d9, 0x1b0e3, 0x1b0ef, 0x1b109, 0x1b12b, 0x1b12d, 0x1b14d, 0x1b153, 0x1b15f, 0x1b163, 0x1b171, 0x1b177, 0x1b18b, 0x1b199, 0x1b1af, 0x1b1bb, 0x1b1cf, 0x1b1dd, 0x1b1e1, 0x1b1e7, 0x1b205, 0x1b209, 0x1b211, 0x1b21b, 0x1b24d, 0x1b259, 0x1b265, 0x1b277, 0x1b27b, 0x1b287, 0x1b2b1, 0x1b2b7, 0x1b2c9, 0x1b2d1, 0x1b2db, 0x1b2eb, 0x1b2ed, 0x1b313, 0x1b323, 0x1b345, 0x1b349, 0x1b34f, 0x1b35d, 0x1b37f, 0x1b38f, 0x1b397, 0x1b39d, 0x1b3b3, 0x1b3c7, 0x1b3e3, 0x1b3e9, 0x1b3f1, 0x1b40f, 0x1b41b, 0x1b41d, 0x1b435, 0x1b439, 0x1b455, 0x1b46f, 0x1b481, 0x1b499, 0x1b4bd, 0x1b4c9, 0x1b4f3, 0x1b50d, 0x1b531]

/-- gf2e.c:83, `_irreducible_polynomials_degree_16`, part 24. -/
def irredT16_24 : List Nat :=
  [0x1b53b, 0x1b56b, 0x1b597, 0x1b5ad, 0x1b5b3, 0x1b5b9, 0x1b5bf, 0x1b5c7, 0x1b5d5, 0x1b5e3, 0x1b5e5, 0x1b5e9, 0x1b607, 0x1b60b, 0x1b619, 0x1b625, 0x1b631, 0x1b63d, 0x1b64f, 0x1b679, 0x1b67f, 0x1b691, 0x1b69b, 0x1b6b5, 0x1b6bf, 0x1b6d3, 0x1b6e5, 0x1b6ef, 0x1b6f7, 0x1b703, 0x1b70f, 0x1b711, 0x1b727, 0x1b74d, 0x1b755, 0x1b769, 0x1b76f, 0x1b77d, 0x1b793, 0x1b795, 0x1b7a3, 0x1b7a5, 0x1b7a9, 0x1b7d7, 0x1b7db, 0x1b7e1, 0x1b7ed, 0x1b7f9, 0x1b81b, 0x1b821, 0x1b82b, 0x1b82d, 0x1b84d, 0x1b853, 0x1b85f, 0x1b869, 0x1b88b, 0x1b88d, 0x1b8a9, 0x1b8d7, 0x1b8dd, 0x1b8e7, 0x1b8f9, 0x1b901, 0x1b90d, 0x1b913, 0x1b91f, 0x1b929, 0x1b92f, 0x1b949, 0x1b95b, 0x1b96d, 0x1b975, 0x1b983, 0x1b991, 0x1b9b5, 0x1b9b9, 0x1b9c7, 0x1b9f1, 0x1b9f7, 0x1ba07, 0x1ba15, 0x1ba31, 0x1ba45, 0x1ba57, 0x1ba5d, 0x1ba83, 0x1ba85, 0x1ba97, 0x1baa1, 0x1bab3, 0x1bab9, 0x1bacd, 0x1bae3, 0x1bafd, 0x1bb05, 0x1bb1b, 0x1bb27, 0x1bb2d, 0x1bb3f, 0x1bb4b, 0x1bb4d, 0x1bb6f, 0x1bb81, 0x1bba5, 0x1bbb1, 0x1bbbd, 0x1bbcf, 0x1bc07, 0x1bc0b, 0x1bc19, 0x1bc29, 0x1bc45, 0x1bc61, 0x1bc67, 0x1bc85, 0x1bc89, 0x1bc9b, 0x1bcab, 0x1bcc1]

/-- gf2e.c:83, `_irreducible_polynomials_degree_16`, part 25. -/
def irredT16_25 : List Nat :=
  [0x1bcc7, 0x1bcf1, 0x1bcf7, 0x1bd09, 0x1bd1d, 0x1bd3f, 0x1bd53, 0x1bd63, 0x1bd65, 0x1bd7d, 0x1bd8b, 0x1bd8d, 0x1bd93, 0x1bda9, 0x1bdaf, 0x1bdbd, 0x1bdd7, 0x1bdf3, 0x1be0f, 0x1be17, 0x1be21, 0x1be33, 0x1be35, 0x1be39, 0x1be5f, 0x1be63, 0x1be69, 0x1be6f, 0x1be81, 0x1be95, 0x1bea5, 0x1bec9, 0x1beeb, 0x1bef3, 0x1bef9, 0x1beff, 0x1bf19, 0x1bf23, 0x1bf25, 0x1bf2f, 0x1bf31, 0x1bf37, 0x1bf43, 0x1bf4f, 0x1bf51, 0x1bf67, 0x1bf6b, 0x1bf79, 0x1bf7f, 0x1bf85, 0x1bfa7, 0x1bfad, 0x1bfc1, 0x1bfdf, 0x1bfe5, 0x1bffd, 0x1c017, 0x1c021, 0x1c027, 0x1c035, 0x1c04d, 0x1c069, 0x1c071, 0x1c07b, 0x1c07d, 0x1c087, 0x1c09f, 0x1c0b1, 0x1c0bb, 0x1c0c9, 0x1c0cf, 0x1c0db, 0x1c0dd, 0x1c0f3, 0x1c107, 0x1c10b, 0x1c115, 0x1c119, 0x1c137, 0x1c13d, 0x1c151, 0x1c175, 0x1c179, 0x1c17f, 0x1c183, 0x1c185, 0x1c1b3, 0x1c1cd, 0x1c1d3, 0x1c1d9, 0x1c1df, 0x1c1e9, 0x1c207, 0x1c21f, 0x1c223, 0x1c231, 0x1c24f, 0x1c251, 0x1c25d, 0x1c267, 0x1c285, 0x1c29b, 0x1c29d, 0x1c2c1, 0x1c2d5, 0x1c2df, 0x1c2e3, 0x1c2e5, 0x1c309, 0x1c341, 0x1c353, 0x1c371, 0x1c37d, 0x1c381, 0x1c39f, 0x1c3a5, 0x1c3b7, 0x1c3c3, 0x1c3c9, 0x1c3d7]

/-- gf2e.c:83, `_irreducible_polynomials_degree_16`, part 26. -/
def irredT16_26 : List Nat :=
  [0x1c3e1, 0x1c3ed, 0x1c401, 0x1c413, 0x1c425, 0x1c429, 0x1c445, 0x1c45d, 0x1c46b, 0x1c479, 0x1c47f, 0x1c491, 0x1c4a7, 0x1c4d5, 0x1c4e3, 0x1c4e9, 0x1c511, 0x1c527, 0x1c52d, 0x1c533, 0x1c541, 0x1c54d, 0x1c553, 0x1c559, 0x1c577, 0x1c57d, 0x1c58b, 0x1c599, 0x1c5a3, 0x1c5b1, 0x1c5b7, 0x1c5d1, 0x1c5ed, 0x1c5f5, 0x1c609, 0x1c61b, 0x1c62d, 0x1c633, 0x1c639, 0x1c665, 0x1c67b, 0x1c68b, 0x1c695, 0x1c6af, 0x1c6dd, 0x1c6e1, 0x1c6f3, 0x1c701, 0x1c70d, 0x1c729, 0x1c73b, 0x1c743, 0x1c75b, 0x1c767, 0x1c76d, 0x1c775, 0x1c78f, 0x1c79b, 0x1c7ad, 0x1c7b5, 0x1c7bf, 0x1c7d5, 0x1c7e5, 0x1c7fd, 0x1c807, 0x1c813, 0x1c815, 0x1c819, 0x1c825, 0x1c837, 0x1c867, 0x1c86b, 0x1c879, 0x1c883, 0x1c889, 0x1c897, 0x1c8bf, 0x1c8cd, 0x1c8df, 0x1c8ef, 0x1c8f7, 0x1c8fd, 0x1c911, 0x1c91d, 0x1c933, 0x1c947, 0x1c94b, 0x1c955, 0x1c95f, 0x1c963, 0x1c969, 0x1c96f, 0x1c98d, 0x1c993, 0x1c995, 0x1c9a9, 0x1c9b1, 0x1c9bb, 0x1c9d7, 0x1c9db, 0x1ca03, 0x1ca11, 0x1ca2b, 0x1ca41, 0x1ca47, 0x1ca53, 0x1ca59, 0x1ca65, 0x1ca8b, 0x1ca93, 0x1caa5, 0x1caa9, 0x1caaf, 0x1cab7, 0x1cabd, 0x1cae1, 0x1cae7, 0x1caf3, 0x1cb15, 0x1cb19]

/-- gf2e.c:83, `_irreducible_polynomials_degree_16`, part 27. -/
def irredT16_27 : List Nat :=
  [0x1cb1f, 0x1cb23, 0x1cb51, 0x1cb5d, 0x1cb6b, 0x1cb85, 0x1cb89, 0x1cbab, 0x1cbbf, 0x1cbd3, 0x1cbe9, 0x1cbfb, 0x1cc27, 0x1cc41, 0x1cc4b, 0x1cc65, 0x1cc6f, 0x1cc7b, 0x1cc87, 0x1cc99, 0x1cca3, 0x1cca5, 0x1ccb7, 0x1ccdd, 0x1cced, 0x1ccf5, 0x1ccff, 0x1cd0d, 0x1cd25, 0x1cd37, 0x1cd4f, 0x1cd57, 0x1cd79, 0x1cd9d, 0x1cdc7, 0x1cdcb, 0x1cdd5, 0x1cddf, 0x1cde9, 0x1cdef, 0x1cdf1, 0x1cdfb, 0x1ce13, 0x1ce3b, 0x1ce3d, 0x1ce49, 0x1ce57, 0x1ce6d, 0x1ce7f, 0x1ce83, 0x1ce89, 0x1ce9d, 0x1cea7, 0x1cead, 0x1ceb5, 0x1cebf, 0x1ced3, 0x1ceef, 0x1cef1, 0x1cefd, 0x1cf05, 0x1cf09, 0x1cf1b, 0x1cf21, 0x1cf2b, 0x1cf33, 0x1cf3f, 0x1cf4d, 0x1cf63, 0x1cf65, 0x1cfbd, 0x1cfe1, 0x1d007, 0x1d00d, 0x1d019, 0x1d02f, 0x1d073, 0x1d089, 0x1d08f, 0x1d0bf, 0x1d0cd, 0x1d0d5, 0x1d0e5, 0x1d0e9, 0x1d0fb, 0x1d103, 0x1d10f, 0x1d11d, 0x1d12b, 0x1d12d, 0x1d139, 0x1d14b, 0x1d153, 0x1d171, 0x1d181, 0x1d193, 0x1d19f, 0x1d1c5, 0x1d1d7, 0x1d1f3, 0x1d211, 0x1d221, 0x1d227, 0x1d24d, 0x1d255, 0x1d263, 0x1d26f, 0x1d28d, 0x1d295, 0x1d29f, 0x1d2bb, 0x1d2cf, 0x1d2e1, 0x1d2eb, 0x1d2ed, 0x1d301, 0x1d30b, 0x1d32f, 0x1d33d, 0x1d35b]

/-- gf2e.c:83, `_irreducible_polynomials_degree_16`, part 28. -/
def irredT16_28 : List Nat :=
  [0x1d35d, 0x1d37f, 0x1d389, 0x1d39b, 0x1d3a1, 0x1d3bf, 0x1d3c1, 0x1d3cb, 0x1d3d3, 0x1d3d9, 0x1d3e9, 0x1d3ef, 0x1d41d, 0x1d42b, 0x1d43f, 0x1d441, 0x1d453, 0x1d455, 0x1d45f, 0x1d471, 0x1d499, 0x1d4b1, 0x1d4bb, 0x1d4bd, 0x1d4c3, 0x1d4dd, 0x1d4e7, 0x1d4f3, 0x1d4f5, 0x1d4f9, 0x1d513, 0x1d51f, 0x1d52f, 0x1d549, 0x1d557, 0x1d567, 0x1d57f, 0x1d583, 0x1d589, 0x1d591, 0x1d5ab, 0x1d5ad, 0x1d5b5, 0x1d5bf, 0x1d5cb, 0x1d5e3, 0x1d5e5, 0x1d5ef, 0x1d5f1, 0x1d5f7, 0x1d601, 0x1d613, 0x1d615, 0x1d623, 0x1d625, 0x1d63b, 0x1d65d, 0x1d66b, 0x1d691, 0x1d6ab, 0x1d6b3, 0x1d6b5, 0x1d6cd, 0x1d6d9, 0x1d6fd, 0x1d717, 0x1d727, 0x1d72d, 0x1d735, 0x1d759, 0x1d75f, 0x1d77b, 0x1d77d, 0x1d787, 0x1d7b1, 0x1d7b7, 0x1d7c9, 0x1d7d1, 0x1d7db, 0x1d7eb, 0x1d80f, 0x1d827, 0x1d839, 0x1d853, 0x1d87d, 0x1d899, 0x1d8b7, 0x1d8c3, 0x1d8c5, 0x1d8d1, 0x1d8f5, 0x1d8ff, 0x1d907, 0x1d90b, 0x1d90d, 0x1d91f, 0x1d931, 0x1d943, 0x1d945, 0x1d94f, 0x1d967, 0x1d975, 0x1d9b3, 0x1d9d3, 0x1d9f7, 0x1d9fb, 0x1da13, 0x1da15, 0x1da19, 0x1da31, 0x1da37, 0x1da43, 0x1da49, 0x1da5d, 0x1da67, 0x1da6d, 0x1da85, 0x1da9b, 0x1daa7, 0x1dab3]

/-- gf2e.c:83, `_irreducible_polynomials_degree_16`, part 29. -/
def irredT16_29 : List Nat :=
  [0x1dab5, 0x1dacb, 0x1dad3, 0x1dad9, 0x1daef, 0x1db03, 0x1db0f, 0x1db35, 0x1db39, 0x1db47, 0x1db4b, 0x1db55, 0x1db63, 0x1db87, 0x1dba3, 0x1dba5, 0x1dbc5, 0x1dbd7, 0x1dbdd, 0x1dbed, 0x1dbf3, 0x1dbf9, 0x1dc0d, 0x1dc19, 0x1dc2f, 0x1dc3d, 0x1dc43, 0x1dc45, 0x1dc6d, 0x1dc7f, 0x1dc83, 0x1dc91, 0x1dc9b, 0x1dcab, 0x1dcad, 0x1dcb9, 0x1dcd3, 0x1dce3, 0x1dce5, 0x1dd0f, 0x1dd1b, 0x1dd1d, 0x1dd21, 0x1dd39, 0x1dd3f, 0x1dd47, 0x1dd4d, 0x1dd69, 0x1dd71, 0x1dd8b, 0x1dd95, 0x1dd99, 0x1dda3, 0x1ddcf, 0x1dde1, 0x1ddf3, 0x1de03, 0x1de05, 0x1de27, 0x1de4b, 0x1de4d, 0x1de65, 0x1de69, 0x1de7b, 0x1de81, 0x1de95, 0x1dea5, 0x1deaf, 0x1debd, 0x1dec3, 0x1decf, 0x1ded1, 0x1dedb, 0x1df01, 0x1df29, 0x1df37, 0x1df3b, 0x1df45, 0x1df49, 0x1df57, 0x1df73, 0x1df83, 0x1df85, 0x1df8f, 0x1df91, 0x1dfa1, 0x1dfcd, 0x1dfef, 0x1e013, 0x1e015, 0x1e023, 0x1e037, 0x1e045, 0x1e049, 0x1e05b, 0x1e061, 0x1e07f, 0x1e09d, 0x1e0ab, 0x1e0b3, 0x1e0b5, 0x1e0d5, 0x1e0d9, 0x1e0df, 0x1e0e9, 0x1e0fb, 0x1e117, 0x1e133, 0x1e14d, 0x1e165, 0x1e177, 0x1e193, 0x1e1a5, 0x1e1b7, 0x1e1c3, 0x1e1d1, 0x1e1db, 0x1e1ed, 0x1e209, 0x1e217]

/-- gf2e.c:83, `_irreducible_polynomials_degree_16`, part 30. -/
def irredT16_30 : List Nat :=
  [0x1e21d, 0x1e22d, 0x1e233, 0x1e239, 0x1e25f, 0x1e28d, 0x1e2c5, 0x1e2eb, 0x1e2f9, 0x1e301, 0x1e31f, 0x1e325, 0x1e32f, 0x1e345, 0x1e351, 0x1e361, 0x1e373, 0x1e38f, 0x1e39b, 0x1e39d, 0x1e3ab, 0x1e3ad, 0x1e3c1, 0x1e3c7, 0x1e3e5, 0x1e3f7, 0x1e411, 0x1e42b, 0x1e439, 0x1e44b, 0x1e469, 0x1e46f, 0x1e471, 0x1e47d, 0x1e487, 0x1e48d, 0x1e4a3, 0x1e4cf, 0x1e4db, 0x1e4eb, 0x1e4f3, 0x1e501, 0x1e513, 0x1e537, 0x1e543, 0x1e567, 0x1e56b, 0x1e56d, 0x1e575, 0x1e57f, 0x1e59b, 0x1e5b5, 0x1e5bf, 0x1e5cd, 0x1e5d9, 0x1e5df, 0x1e5e5, 0x1e5fb, 0x1e607, 0x1e60b, 0x1e62f, 0x1e631, 0x1e63d, 0x1e643, 0x1e64f, 0x1e66b, 0x1e685, 0x1e689, 0x1e697, 0x1e69d, 0x1e6a1, 0x1e6ad, 0x1e6b9, 0x1e6d5, 0x1e6e3, 0x1e6f1, 0x1e6f7, 0x1e709, 0x1e71b, 0x1e72d, 0x1e735, 0x1e73f, 0x1e741, 0x1e74b, 0x1e755, 0x1e763, 0x1e76f, 0x1e777, 0x1e781, 0x1e78b, 0x1e793, 0x1e79f, 0x1e7a5, 0x1e7af, 0x1e7bb, 0x1e7e1, 0x1e817, 0x1e833, 0x1e85f, 0x1e86f, 0x1e877, 0x1e87d, 0x1e881, 0x1e895, 0x1e899, 0x1e8a5, 0x1e8cf, 0x1e8d1, 0x1e8ed, 0x1e901, 0x1e923, 0x1e925, 0x1e929, 0x1e93b, 0x1e957, 0x1e96b, 0x1e973, 0x1e97f, 0x1e98f, 0x1e997]

/-- gf2e.c:83, `_irreducible_polynomials_degree_16`, part 31. -/
def irredT16_31 : List Nat :=
  [0x1e9cd, 0x1e9e3, 0x1e9ef, 0x1e9f1, 0x1e9fb, 0x1e9fd, 0x1ea13, 0x1ea19, 0x1ea1f, 0x1ea29, 0x1ea43, 0x1ea51, 0x1ea61, 0x1ea89, 0x1ea91, 0x1ea9d, 0x1eaa7, 0x1eab9, 0x1eac1, 0x1eac7, 0x1ead5, 0x1eae5, 0x1eaef, 0x1eaf7, 0x1eafd, 0x1eb05, 0x1eb1b, 0x1eb21, 0x1eb2b, 0x1eb2d, 0x1eb41, 0x1eb55, 0x1eb7b, 0x1eb9f, 0x1eba9, 0x1ebb1, 0x1ebc3, 0x1ebc5, 0x1ebcf, 0x1ebeb, 0x1ec0b, 0x1ec2f, 0x1ec31, 0x1ec43, 0x1ec4f, 0x1ec5b, 0x1ec5d, 0x1ec67, 0x1ec6d, 0x1ec79, 0x1ec97, 0x1ecad, 0x1ecb3, 0x1ecb5, 0x1eccb, 0x1ecd9, 0x1ece5, 0x1ece9, 0x1ecfb, 0x1ed03, 0x1ed11, 0x1ed1d, 0x1ed27, 0x1ed39, 0x1ed5f, 0x1ed6f, 0x1ed81, 0x1ed95, 0x1ed9f, 0x1eda9, 0x1edbb, 0x1edcf, 0x1eddb, 0x1edf3, 0x1ee1b, 0x1ee27, 0x1ee2b, 0x1ee35, 0x1ee53, 0x1ee63, 0x1ee71, 0x1ee99, 0x1eeaf, 0x1eeb7, 0x1eebd, 0x1eedb, 0x1eee7, 0x1eeed, 0x1eef3, 0x1ef0d, 0x1ef23, 0x1ef2f, 0x1ef3d, 0x1ef57, 0x1ef67, 0x1ef73, 0x1ef79, 0x1ef85, 0x1ef97, 0x1efa1, 0x1efab, 0x1efad, 0x1efb3, 0x1efb9, 0x1efc1, 0x1efdf, 0x1efe3, 0x1eff7, 0x1f009, 0x1f02d, 0x1f039, 0x1f04d, 0x1f055, 0x1f05f, 0x1f065, 0x1f069, 0x1f087, 0x1f095, 0x1f0af, 0x1f0bd]

/-- gf2e.c:83, `_irreducible_polynomials_degree_16`, part 32. -/
def irredT16_32 : List Nat :=
  [0x1f0d1, 0x1f0f9, 0x1f10b, 0x1f113, 0x1f137, 0x1f13b, 0x1f145, 0x1f157, 0x1f161, 0x1f175, 0x1f189, 0x1f18f, 0x1f1a7, 0x1f1ab, 0x1f1bf, 0x1f1cb, 0x1f1d3, 0x1f1e3, 0x1f207, 0x1f20d, 0x1f215, 0x1f229, 0x1f245, 0x1f249, 0x1f27f, 0x1f283, 0x1f297, 0x1f2a1, 0x1f2ab, 0x1f2b9, 0x1f2d5, 0x1f2df, 0x1f2f1, 0x1f317, 0x1f32d, 0x1f335, 0x1f359, 0x1f369, 0x1f36f, 0x1f381, 0x1f387, 0x1f393, 0x1f395, 0x1f399, 0x1f3a3, 0x1f3af, 0x1f3cf, 0x1f3f9, 0x1f41f, 0x1f423, 0x1f42f, 0x1f43b, 0x1f43d, 0x1f451, 0x1f457, 0x1f46b, 0x1f489, 0x1f48f, 0x1f49d, 0x1f4a1, 0x1f4c1, 0x1f4d3, 0x1f4e9, 0x1f4f1, 0x1f4fb, 0x1f511, 0x1f51b, 0x1f51d, 0x1f527, 0x1f539, 0x1f553, 0x1f565, 0x1f56f, 0x1f571, 0x1f58b, 0x1f5c5, 0x1f5d7, 0x1f5ff, 0x1f60f, 0x1f621, 0x1f627, 0x1f62b, 0x1f635, 0x1f639, 0x1f655, 0x1f687, 0x1f693, 0x1f69f, 0x1f6a5, 0x1f6c5, 0x1f6dd, 0x1f6eb, 0x1f6f3, 0x1f6f9, 0x1f707, 0x1f715, 0x1f725, 0x1f743, 0x1f74f, 0x1f751, 0x1f767, 0x1f76b, 0x1f775, 0x1f783, 0x1f791, 0x1f7b3, 0x1f7b5, 0x1f7bf, 0x1f7cd, 0x1f7e9, 0x1f7ef, 0x1f7fb, 0x1f801, 0x1f825, 0x1f83d, 0x1f849, 0x1f857, 0x1f873, 0x1f8ad, 0x1f8bf]

/-- gf2e.c:83, `_irreducible_polynomials_degree_16`, part 33. -/
def irredT16_33 : List Nat :=
  [0x1f8cb, 0x1f8d9, 0x1f8e3, 0x1f8f1, 0x1f905, 0x1f939, 0x1f93f, 0x1f94d, 0x1f953, 0x1f971, 0x1f977, 0x1f97b, 0x1f9bb, 0x1f9cf, 0x1f9d1, 0x1f9dd, 0x1f9e7, 0x1f9f5, 0x1fa17, 0x1fa21, 0x1fa27, 0x1fa3f, 0x1fa41, 0x1fa4b, 0x1fa59, 0x1fa7d, 0x1fa8b, 0x1fa93, 0x1fa95, 0x1faa5, 0x1fab1, 0x1fadb, 0x1fae7, 0x1faeb, 0x1fb01, 0x1fb1f, 0x1fb49, 0x1fb4f, 0x1fb57, 0x1fb5b, 0x1fb6d, 0x1fb7f, 0x1fb83, 0x1fb85, 0x1fb97, 0x1fb9d, 0x1fba7, 0x1fbab, 0x1fbc7, 0x1fbcb, 0x1fbcd, 0x1fbdf, 0x1fbe9, 0x1fbf1, 0x1fc0f, 0x1fc11, 0x1fc1b, 0x1fc2d, 0x1fc47, 0x1fc55, 0x1fc59, 0x1fc63, 0x1fc71, 0x1fc77, 0x1fc7d, 0x1fc8d, 0x1fc9f, 0x1fca9, 0x1fcbd, 0x1fcc9, 0x1fcdb, 0x1fce1, 0x1fce7, 0x1fced, 0x1fd07, 0x1fd0d, 0x1fd23, 0x1fd29, 0x1fd2f, 0x1fd3d, 0x1fd43, 0x1fd4f, 0x1fd57, 0x1fd73, 0x1fd75, 0x1fd85, 0x1fd97, 0x1fd9b, 0x1fdb3, 0x1fdbf, 0x1fdc1, 0x1fdd3, 0x1fde9, 0x1fdfb, 0x1fe15, 0x1fe25, 0x1fe31, 0x1fe37, 0x1fe49, 0x1fe67, 0x1fe79, 0x1fe83, 0x1fe91, 0x1fea1, 0x1fec1, 0x1fee5, 0x1fee9, 0x1fefb, 0x1fefd, 0x1ff05, 0x1ff33, 0x1ff35, 0x1ff39, 0x1ff5f, 0x1ff71, 0x1ff93, 0x1ffa5, 0x1ffb1, 0x1ffeb, 0x1ffed]

/-- gf2e.c:83, `_irreducible_polynomials_degree_16[1..]`. -/
def irredT16 : List Nat :=
  irredT16_0 ++ (irredT16_1 ++ (irredT16_2 ++ (irredT16_3 ++ (irredT16_4 ++ (irredT16_5 ++ (irredT16_6 ++ (irredT16_7 ++ (irredT16_8 ++ (irredT16_9 ++ (irredT16_10 ++ (irredT16_11 ++ (irredT16_12 ++ (irredT16_13 ++ (irredT16_14 ++ (irredT16_15 ++ (irredT16_16 ++ (irredT16_17 ++ (irredT16_18 ++ (irredT16_19 ++ (irredT16_20 ++ (irredT16_21 ++ (irredT16_22 ++ (irredT16_23 ++ (irredT16_24 ++ (irredT16_25 ++ (irredT16_26 ++ (irredT16_27 ++ (irredT16_28 ++ (irredT16_29 ++ (irredT16_30 ++ (irredT16_31 ++ (irredT16_32 ++ (irredT16_33)))))))))))))))))))))))))))))))))

/-- gf2e.c:85-93 `irreducible_polynomials[d]` without the leading count
(`NULL`, here empty, for `d = 0`). -/
def irredTable : Nat → List Nat
  | 1 => irredT1
  | 2 => irredT2
  | 3 => irredT3
  | 4 => irredT4
  | 5 => irredT5
  | 6 => irredT6
  | 7 => irredT7
  | 8 => irredT8
  | 9 => irredT9
  | 10 => irredT10
  | 11 => irredT11
  | 12 => irredT12
  | 13 => irredT13
  | 14 => irredT14
  | 15 => irredT15
  | 16 => irredT16
  | _ => []

/-- gf2e.c:68-83, the leading entry of each table. -/
def irredCount : Nat → Nat
  | 1 => 2
  | 2 => 1
  | 3 => 2
  | 4 => 3
  | 5 => 6
  | 6 => 9
  | 7 => 18
  | 8 => 30
  | 9 => 56
  | 10 => 99
  | 11 => 186
  | 12 => 335
  | 13 => 630
  | 14 => 1161
  | 15 => 2182
  | 16 => 4080
  | _ => 0

end M4rie
