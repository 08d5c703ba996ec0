/-!
Generated by tools/gen_blm.py from blm.c.
-/

namespace M4rie

/-- blm.c:484 `costs`. -/
def crtCosts : List Nat := [0, 1, 3, 6, 9, 13, 17, 22, 27, 31, 36, 40, 45, 49, 55, 60, 64]

/-- blm.c:156-159 `_small_multiplication_map`, case 1: the words `A->rows[i][0]` of the 1 x 1 matrix. -/
def smallMap1 : List Nat := [0x1]

/-- blm.c:160-163 `_small_multiplication_map`, case 2: the words `A->rows[i][0]` of the 3 x 2 matrix. -/
def smallMap2 : List Nat := [0x1, 0x3, 0x2]

/-- blm.c:164-168 `_small_multiplication_map`, case 3: the words `A->rows[i][0]` of the 6 x 3 matrix. -/
def smallMap3 : List Nat := [0x1, 0x2, 0x4, 0x3, 0x5, 0x6]

/-- blm.c:169-173 `_small_multiplication_map`, case 4: the words `A->rows[i][0]` of the 9 x 4 matrix. -/
def smallMap4 : List Nat := [0x1, 0x2, 0x4, 0x8, 0xf, 0x3, 0x5, 0xa, 0xc]

/-- blm.c:174-180 `_small_multiplication_map`, case 5: the words `A->rows[i][0]` of the 13 x 5 matrix. -/
def smallMap5 : List Nat := [0x1, 0x2, 0x8, 0x10, 0x11, 0x3, 0x18, 0x16, 0xd, 0x1b, 0x17, 0x1d, 0x1f]

/-- blm.c:181-188 `_small_multiplication_map`, case 6: the words `A->rows[i][0]` of the 17 x 6 matrix. -/
def smallMap6 : List Nat := [0x1, 0x2, 0x10, 0x20, 0x30, 0x3, 0x18, 0x6, 0x12, 0xc, 0x38, 0x7, 0x29, 0x25, 0x2d, 0x1b, 0x3f]

/-- blm.c:189-197 `_small_multiplication_map`, case 7: the words `A->rows[i][0]` of the 22 x 7 matrix. -/
def smallMap7 : List Nat := [0x7f, 0x6e, 0x3b, 0x5d, 0x6d, 0x5b, 0x36, 0x3, 0x5, 0x11, 0xa, 0x44, 0x28, 0x50, 0x60, 0x1, 0x2, 0x4, 0x8, 0x10, 0x20, 0x40]

/-- blm.c:198-207 `_small_multiplication_map`, case 8: the words `A->rows[i][0]` of the 27 x 8 matrix. -/
def smallMap8 : List Nat := [0x1, 0x2, 0x4, 0x8, 0x10, 0x20, 0x40, 0x80, 0x5, 0xc, 0x44, 0x30, 0xc0, 0xf, 0xa0, 0x11, 0xa, 0xaa, 0x3, 0x50, 0x22, 0xff, 0x55, 0x33, 0xcc, 0x88, 0xf0]

/-- blm.c:208-218 `_small_multiplication_map`, case 9: the words `A->rows[i][0]` of the 31 x 9 matrix. -/
def smallMap9 : List Nat := [0x100, 0x1, 0x2, 0x3, 0x155, 0xaa, 0x1ff, 0x16d, 0x1b6, 0xdb, 0xe9, 0x13a, 0x74, 0x1d3, 0x9d, 0x14e, 0xb9, 0x172, 0x5c, 0x1cb, 0xe5, 0x12e, 0x191, 0xb2, 0x164, 0xc8, 0x8f, 0x123, 0xf5, 0x7a, 0x1ac]

/-- blm.c:219-230 `_small_multiplication_map`, case 10: the words `A->rows[i][0]` of the 36 x 10 matrix. -/
def smallMap10 : List Nat := [0x200, 0x1, 0x3ff, 0x36d, 0x1b6, 0x2db, 0xe9, 0x13a, 0x274, 0x1d3, 0x29d, 0x34e, 0xb9, 0x172, 0x25c, 0x1cb, 0x2e5, 0x32e, 0x191, 0x2b2, 0x164, 0x2c8, 0x8f, 0x323, 0xf5, 0x7a, 0x3ac, 0x2f1, 0x1e2, 0x3c4, 0x178, 0x1af, 0x313, 0x135, 0x9a, 0x2bc]

/-- blm.c:231-243 `_small_multiplication_map`, case 11: the words `A->rows[i][0]` of the 40 x 11 matrix. -/
def smallMap11 : List Nat := [0x1, 0x36d, 0x5b6, 0x6db, 0x555, 0x2aa, 0x7ff, 0x400, 0x200, 0x600, 0x4e9, 0x53a, 0x274, 0x1d3, 0x69d, 0x74e, 0x4b9, 0x172, 0x65c, 0x5cb, 0x2e5, 0x72e, 0x591, 0x6b2, 0x564, 0x2c8, 0x48f, 0x323, 0xf5, 0x47a, 0x7ac, 0x2f1, 0x5e2, 0x3c4, 0x578, 0x1af, 0x713, 0x135, 0x9a, 0x6bc]

/-- blm.c:244-258 `_small_multiplication_map`, case 12: the words `A->rows[i][0]` of the 45 x 12 matrix. -/
def smallMap12 : List Nat := [0xb6d, 0xdb6, 0x6db, 0x1, 0x2, 0x3, 0x555, 0xaaa, 0xfff, 0x800, 0x400, 0xc00, 0x4e9, 0xd3a, 0xa74, 0x9d3, 0xe9d, 0x74e, 0x591, 0xeb2, 0xd64, 0xac8, 0xc8f, 0xb23, 0x8f5, 0x47a, 0x7ac, 0xaf1, 0x5e2, 0xbc4, 0xd78, 0x9af, 0xf13, 0x135, 0x89a, 0x6bc, 0x631, 0xa52, 0x294, 0x318, 0xdef, 0xc63, 0x4a5, 0x94a, 0x18c]

/-- blm.c:259-274 `_small_multiplication_map`, case 13: the words `A->rows[i][0]` of the 49 x 13 matrix. -/
def smallMap13 : List Nat := [0x1, 0x1b6d, 0xdb6, 0x16db, 0x1555, 0xaaa, 0x1fff, 0x1000, 0x800, 0x1800, 0x14e9, 0x1d3a, 0x1a74, 0x9d3, 0xe9d, 0x74e, 0x1cb9, 0x1972, 0xe5c, 0x5cb, 0x12e5, 0x172e, 0x1591, 0x1eb2, 0x1d64, 0x1ac8, 0xc8f, 0xb23, 0x8f5, 0x47a, 0x7ac, 0x1af1, 0x15e2, 0xbc4, 0xd78, 0x9af, 0xf13, 0x1135, 0x189a, 0x6bc, 0x631, 0xa52, 0x1294, 0x318, 0x1def, 0xc63, 0x14a5, 0x94a, 0x118c]

/-- blm.c:275-291 `_small_multiplication_map`, case 14: the words `A->rows[i][0]` of the 55 x 14 matrix. -/
def smallMap14 : List Nat := [0x1, 0x1b6d, 0x2db6, 0x36db, 0x1555, 0x2aaa, 0x3fff, 0x34e9, 0x1d3a, 0x3a74, 0x29d3, 0xe9d, 0x274e, 0x1cb9, 0x3972, 0x2e5c, 0x25cb, 0x32e5, 0x172e, 0x3591, 0x1eb2, 0x3d64, 0x3ac8, 0x2c8f, 0x2b23, 0x8f5, 0x247a, 0x7ac, 0x1af1, 0x35e2, 0x2bc4, 0xd78, 0x9af, 0x2f13, 0x3135, 0x389a, 0x26bc, 0x631, 0xa52, 0x1294, 0x2318, 0x3def, 0xc63, 0x14a5, 0x294a, 0x318c, 0x2000, 0x1000, 0x800, 0x400, 0x3c00, 0x3000, 0x2800, 0x1400, 0xc00]

/-- blm.c:292-309 `_small_multiplication_map`, case 15: the words `A->rows[i][0]` of the 60 x 15 matrix. -/
def smallMap15 : List Nat := [0x1, 0x7fff, 0x5b6d, 0x6db6, 0x36db, 0x4000, 0x2000, 0x6000, 0x74e9, 0x1d3a, 0x3a74, 0x69d3, 0x4e9d, 0x274e, 0x5cb9, 0x3972, 0x2e5c, 0x65cb, 0x72e5, 0x172e, 0x7591, 0x1eb2, 0x3d64, 0x7ac8, 0x2c8f, 0x6b23, 0x48f5, 0x647a, 0x47ac, 0x1af1, 0x35e2, 0x6bc4, 0x4d78, 0x9af, 0x2f13, 0x7135, 0x789a, 0x26bc, 0x4631, 0x4a52, 0x5294, 0x6318, 0x3def, 0xc63, 0x14a5, 0x294a, 0x318c, 0x4d21, 0x1a42, 0x7348, 0x6690, 0x2bb1, 0x5763, 0x15d8, 0x576, 0x47cd, 0x42bb, 0x4857, 0x215d, 0x3b1f]

/-- blm.c:310-328 `_small_multiplication_map`, case 16: the words `A->rows[i][0]` of the 64 x 16 matrix. -/
def smallMap16 : List Nat := [0xdb6d, 0x6db6, 0xb6db, 0x1, 0x2, 0x3, 0x5555, 0xaaaa, 0xffff, 0x8000, 0x4000, 0xc000, 0x74e9, 0x9d3a, 0x3a74, 0xe9d3, 0x4e9d, 0xa74e, 0x5cb9, 0xb972, 0x2e5c, 0xe5cb, 0x72e5, 0x972e, 0xf591, 0x1eb2, 0x3d64, 0x7ac8, 0xac8f, 0xeb23, 0xc8f5, 0x647a, 0x47ac, 0x9af1, 0x35e2, 0x6bc4, 0x4d78, 0x89af, 0xaf13, 0xf135, 0x789a, 0x26bc, 0xc631, 0x4a52, 0x5294, 0x6318, 0xbdef, 0x8c63, 0x94a5, 0x294a, 0x318c, 0xcd21, 0x9a42, 0xf348, 0xe690, 0x2bb1, 0x5763, 0x15d8, 0x8576, 0xc7cd, 0x42bb, 0x4857, 0x215d, 0xbb1f]

/-- blm.c:153-334 `_small_multiplication_map(degree)`: the words of its rows; `none` is the `default:` branch (`m4ri_die`).
The matrix has `degree` columns and as many rows as the list has entries. -/
def smallMap? : Nat → Option (List Nat)
  | 1 => some smallMap1
  | 2 => some smallMap2
  | 3 => some smallMap3
  | 4 => some smallMap4
  | 5 => some smallMap5
  | 6 => some smallMap6
  | 7 => some smallMap7
  | 8 => some smallMap8
  | 9 => some smallMap9
  | 10 => some smallMap10
  | 11 => some smallMap11
  | 12 => some smallMap12
  | 13 => some smallMap13
  | 14 => some smallMap14
  | 15 => some smallMap15
  | 16 => some smallMap16
  | _ => none

end M4rie
