import Verif.Model.SliceOps

/-!
# Printing (mzed.c, mzd_slice.c)

`printf` is modelled by its contract for the conversions used: `%{width}x` prints an `unsigned int` in lower case hexadecimal without leading zeros,
padded on the left with blanks to at least `width` characters.
-/

namespace M4rie

/-- a hexadecimal digit -/
def hexDigit (d : Nat) : Char := if d < 10 then Char.ofNat ('0'.toNat + d) else Char.ofNat ('a'.toNat + (d - 10))

/-- contract of `printf("%x", x)` -/
def hexDigits (x : Nat) : List Char :=
  if h : x < 16 then [hexDigit x] else hexDigits (x / 16) ++ [hexDigit (x % 16)]
termination_by x
decreasing_by omega

/-- contract of `printf("%{width}x", (int)tmp)` -/
def printHex (width : Nat) (tmp : Word) : List Char :=
  let s := hexDigits (tmp.toNat % 2 ^ 32)
  List.replicate (width - s.length) ' ' ++ s

/-- mzed.c:256-259, mzd_slice.c:65-68 the width of an entry of `w` bits -/
def printWidth (w : Nat) : Nat := w / 4 + if w % 4 = 0 then 0 else 1

/-- mzed.c:262-267, mzd_slice.c:72-77 columns `j, j + 1, ..` of a row with `ncols` columns: the entries with blanks between them -/
def printRow (width ncols : Nat) (read : Nat → Word) (j : Nat) : List Char :=
  if j < ncols then printHex width (read j) ++ (if j + 1 < ncols then [' '] else []) ++ printRow width ncols read (j + 1) else []
termination_by ncols - j

/-- mzed.c:260-269, mzd_slice.c:70-79 rows `i, i + 1, ..` -/
def printRows (width nrows ncols : Nat) (read : Nat → Nat → Word) (i : Nat) : List Char :=
  if i < nrows then '[' :: printRow width ncols (read i) 0 ++ [']', '\n'] ++ printRows width nrows ncols read (i + 1) else []
termination_by nrows - i

/-- mzed.c:254-270 the text printed by `mzed_print(A)` -/
def mzedPrint (A : Mzed) : List Char := printRows (printWidth A.w) A.nrows A.ncols (mzedReadElem A) 0

/-- mzd_slice.c:63-80 the text printed by `mzd_slice_print(A)` -/
def mzdSlicePrint (A : Slice) : List Char := printRows (printWidth (degreeToW A.ff.degree)) A.nrows A.ncols (mzdSliceReadElem A) 0

end M4rie
