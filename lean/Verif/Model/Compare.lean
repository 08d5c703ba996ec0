import Verif.Model.MzdPoly
import Verif.Model.SliceOps

/-!
# The comparisons with their sign: mzed.h, mzd_slice.h

C19 and C56 are about the result being 0 only.  Here M4RI's `mzd_cmp` is modelled word by word.
-/

namespace M4rie

/-- word `j` of a row of `nc` columns; the last one is masked by `high_bitmask` (M4RI `mzd_cmp`) -/
def maskWord (nc j : Nat) (x : Word) : Word := if j + 1 = (nc + 63) / 64 then x &&& (BitVec.allOnes 64 >>> ((64 - nc % 64) % 64)) else x

/-- M4RI `mzd_cmp`, one row: words `q-1` down to 0 -/
def mzdCmpRow (nc : Nat) (a b : Nat → Word) : Nat → BitVec 32
  | 0 => 0#32
  | j + 1 => if maskWord nc j (a j) < maskWord nc j (b j) then -1#32 else if maskWord nc j (b j) < maskWord nc j (a j) then 1#32 else mzdCmpRow nc a b j

/-- M4RI `mzd_cmp`, the loop over the rows: `n` rows from row `i` on -/
def mzdCmpRows (nc : Nat) (A B : Nat → Nat → Word) : Nat → Nat → BitVec 32
  | 0, _ => 0#32
  | n + 1, i => if mzdCmpRow nc (A i) (B i) ((nc + 63) / 64) ≠ 0#32 then mzdCmpRow nc (A i) (B i) ((nc + 63) / 64) else mzdCmpRows nc A B n (i + 1)

/-- M4RI `mzd_cmp(A,B)`; for matrices without columns it reads in front of the rows, which is not modelled -/
def mzdCmp (A B : (Nat × Nat) × (Nat → Nat → Word)) : BitVec 32 :=
  if A.1.1 < B.1.1 then -1#32 else if B.1.1 < A.1.1 then 1#32 else if A.1.2 < B.1.2 then -1#32 else if B.1.2 < A.1.2 then 1#32
  else mzdCmpRows A.1.2 A.2 B.2 A.1.1 0

/-- mzed.h:472-474 `mzed_cmp(A,B)`. -/
def mzedCmp (A B : Mzed) : BitVec 32 := mzdCmp ((A.nrows, A.bitCols), A.words) ((B.nrows, B.bitCols), B.words)

/-- mzd_slice.h:247-254 `mzd_slice_cmp(A,B)`. -/
def mzdSliceCmp (A B : Slice) : BitVec 32 :=
  if A.fid ≠ B.fid ∨ A.depth ≠ B.depth then -1#32
  else forN (fun i r => r ||| mzdCmp ((A.nrows, A.ncols), A.x i) ((B.nrows, B.ncols), B.x i)) A.depth 0#32

end M4rie
