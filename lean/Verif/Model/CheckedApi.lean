import Verif.Model.CheckedPle

/-!
# The remaining functions with every access checked

Continues `Checked.lean`: whole-matrix operations, permutations, inversion, slices.  M4RI's functions get the preconditions under which they
do not touch memory outside the matrices; where the M4RI routine looks at the last word of a row (`mzd_row_add`, `mzd_copy_row`, `mzd_is_zero`,
`mzd_cmp`, `mzd_first_zero_row`) this includes that there is a column.
-/

namespace M4rie.Chk

/-! ### packed -/

/-- mzed.c:196-206 `mzed_copy(A,B)`, `A` given; M4RI: `mzd_copy` dies if `A` is smaller. -/
def copy (A B : Mzed) : Option Mzed :=
  if A.fid = B.fid ∧ A.nrows = B.nrows ∧ A.ncols = B.ncols then
    (need (B.nrows ≤ A.nrows ∧ B.bitCols ≤ A.bitCols)).bind fun _ => some { A with words := mzdCopy B.nrows B.bitCols A.words B.words }
  else none

/-- mzed.c:53-66 `mzed_add(C,A,B)`, `C` given. -/
def add (C A B : Mzed) : Option Mzed :=
  if A.nrows = B.nrows ∧ A.ncols = B.ncols ∧ A.fid = B.fid ∧ C.fid = A.fid ∧ C.nrows = A.nrows ∧ C.ncols = A.ncols then addRaw C A B else none

/-- mzed.h:926-928 `mzed_copy_row(B,i,A,j)`. -/
def copyRow (B : Mzed) (i : Nat) (A : Mzed) (j : Nat) : Option Mzed :=
  (need (i < B.nrows ∧ j < A.nrows ∧ A.bitCols ≤ B.bitCols ∧ 0 < A.bitCols)).bind fun _ => some (mzedCopyRow B i A j)

/-- mzed.h:940-943 `mzed_col_swap(M,cola,colb)`; M4RI: `mzd_col_swap` needs bit columns of the matrix. -/
def colSwap (M : Mzed) (a b : Nat) : Option Mzed :=
  forC (fun i M => (int? (M.w * a + i)).bind fun ca => (int? (M.w * b + i)).bind fun cb =>
    (need (ca < M.bitCols ∧ cb < M.bitCols)).bind fun _ => some { M with words := mzdColSwap M.nrows M.words ca cb }) M.w M

/-- mzed.h:976-978 `mzed_row_add(M,sourcerow,destrow)`. -/
def rowAdd (M : Mzed) (src dst : Nat) : Option Mzed :=
  (need (src < M.nrows ∧ dst < M.nrows ∧ 0 < M.bitCols)).bind fun _ => some (mzedRowAdd M src dst)

/-- mzed.h:484-486 `mzed_is_zero(A)`. -/
def isZero (A : Mzed) : Option Bool := (need (0 < A.bitCols)).bind fun _ => some (mzedIsZero A)

/-- mzed.h:472-474 `mzed_cmp(A,B) == 0`. -/
def equal (A B : Mzed) : Option Bool := (need (0 < A.bitCols ∧ 0 < B.bitCols)).bind fun _ => some (mzedEq A B)

/-- mzed.h:990-992 `mzed_first_zero_row(A)`. -/
def firstZeroRow (A : Mzed) : Option Nat := (need (0 < A.bitCols)).bind fun _ => some (mzedFirstZeroRow A)

/-- mzed.h:111-116 `mzed_concat(NULL,A,B)`; M4RI: `mzd_concat` dies unless the dimensions fit. -/
def concat (A B : Mzed) : Option Mzed :=
  (int? (A.ncols + B.ncols)).bind fun n => (init A.ff A.fid A.nrows n).bind fun C =>
  (need (A.nrows = B.nrows ∧ C.nrows = A.nrows ∧ C.bitCols = A.bitCols + B.bitCols)).bind fun _ =>
  some { C with words := mzdConcat A.nrows A.bitCols B.bitCols C.words A.words B.words }

/-- mzed.h:135-140 `mzed_stack(NULL,A,B)`; M4RI: `mzd_stack` dies unless the dimensions fit. -/
def stack (A B : Mzed) : Option Mzed :=
  (int? (A.nrows + B.nrows)).bind fun m => (init A.ff A.fid m A.ncols).bind fun C =>
  (need (A.bitCols = B.bitCols ∧ C.nrows = A.nrows + B.nrows ∧ C.bitCols = A.bitCols)).bind fun _ =>
  some { C with words := mzdStack A.nrows B.nrows A.bitCols C.words A.words B.words }

/-- mzed.h:157-163 `mzed_submatrix(NULL,M,lowr,lowc,highr,highc)`; M4RI: `mzd_submatrix` needs bounds inside `M` and a result that is large enough. -/
def submatrix (M : Mzed) (lowr lowc highr highc : Nat) : Option Mzed :=
  (need (lowr ≤ highr ∧ lowc ≤ highc)).bind fun _ =>
  (init M.ff M.fid (highr - lowr) (highc - lowc)).bind fun S =>
  (int? (lowc * M.w)).bind fun lc => (int? (highc * M.w)).bind fun hc =>
  (need (highr ≤ M.nrows ∧ hc ≤ M.bitCols ∧ highr - lowr ≤ S.nrows ∧ hc - lc ≤ S.bitCols)).bind fun _ =>
  some { S with words := mzdSubmatrix S.words M.words lowr lc highr hc }

/-- newton_john.c:508-530 `mzed_invert_newton_john(NULL,A)`. -/
def invert (dbg : Bool) (cb : Codebook) (optK : Nat) (small : Bool) (A : Mzed) : Option Mzed :=
  (assert? dbg (A.nrows = A.ncols)).bind fun _ =>
  (init A.ff A.fid A.nrows A.ncols).bind fun I =>
  (setUi I 1#64).bind fun I =>
  (concat A I).bind fun T =>
  (echelonizeNewtonJohn dbg cb optK small T true).bind fun T =>
  (window T.1 0 0 A.nrows A.ncols).bind fun J =>
  (equal I J).bind fun b => if b = true then submatrix T.1 0 A.ncols A.nrows T.1.ncols else none

/-- mzed.c:118-121 `mzed_mul_naive(C,A,B)` (`clear`), mzed.c:123-126 `mzed_addmul_naive(C,A,B)`. -/
def mulNaiveTop (clear : Bool) (C A B : Mzed) : Option Mzed := (mulInit C A B clear).bind fun C => mulNaive C A B

/-- newton_john.c:498-501 `mzed_mul_newton_john(C,A,B)` (`clear`), newton_john.c:503-506 `mzed_addmul_newton_john(C,A,B)`. -/
def mulNewtonJohnTop (dbg : Bool) (cb : Codebook) (bs : Nat) (clear : Bool) (C A B : Mzed) : Option Mzed :=
  (mulInit C A B clear).bind fun C => mulNewtonJohn dbg cb bs C A B

/-- conversion.h:177-186 `mzed_mul_karatsuba(C,A,B)` (`clear`), conversion.h:196-203 `mzed_addmul_karatsuba(C,A,B)`, `C` given. -/
def mulKaratsubaTop (dbg : Bool) (clear : Bool) (C A B : Mzed) : Option Mzed := (mulInit C A B clear).bind fun C => addmulKara dbg C A B

/-- permutation.h:43-45 `mzed_apply_p_left(A,P)`; M4RI asserts `P->values[i] >= i`. -/
def applyPLeft (A : Mzed) (P : Mzp) : Option Mzed := (need (permOk P (min P.length A.nrows) A.nrows)).bind fun _ => some (mzedApplyPLeft A P)

/-- permutation.h:56-58 `mzed_apply_p_left_trans(A,P)`. -/
def applyPLeftTrans (A : Mzed) (P : Mzp) : Option Mzed := (need (permOk P (min P.length A.nrows) A.nrows)).bind fun _ => some (mzedApplyPLeftTrans A P)

/-- permutation.h:69-76 `mzed_apply_p_right(A,P)`. -/
def applyPRight (A : Mzed) (P : Mzp) : Option Mzed :=
  if A.nrows = 0 then some A
  else
    let n := min P.length A.ncols
    forC (fun t A => (pget P (n - 1 - t)).bind fun v => colSwap A (n - 1 - t) v) n A

/-- permutation.h:87-94 `mzed_apply_p_right_trans(A,P)`. -/
def applyPRightTrans (A : Mzed) (P : Mzp) : Option Mzed :=
  if A.nrows = 0 then some A else forC (fun i A => (pget P i).bind fun v => colSwap A i v) (min P.length A.ncols) A

/-- ple.c:25-72 `mzed_ple_naive(A,P,Q)` and newton_john.c:349-397 `mzed_ple_newton_john(A,P,Q)`: `P->values[i]`, `i < nrows`, and `Q->values[j]`,
`j < ncols`, are written. -/
def pleTop (ple : Mzed → (Nat → Nat) → (Nat → Nat) → Option (Mzed × (Nat → Nat) × (Nat → Nat) × Nat)) (A : Mzed) (P Q : Mzp) :
    Option (Mzed × Mzp × Mzp × Nat) :=
  (need (A.nrows ≤ P.length ∧ A.ncols ≤ Q.length)).bind fun _ =>
  (ple A P.val Q.val).bind fun r => some (r.1, ⟨P.length, r.2.1⟩, ⟨Q.length, r.2.2.1⟩, r.2.2.2)

/-! ### sliced -/

/-- `for(i=0; i<n; i++) f(A->x[i])`: run `f i` on the matrix `*A->x[i]` (mzd_slice.h:51-58 the member `x`) -/
def onPlanes (S : Slice) (n : Nat) (f : Nat → Pl → Option Pl) : Option Slice :=
  (forC (fun k X => (X.get k).bind fun p => (f k p).bind fun p => X.put k p) n (arr S)).map fun X => { S with x := X.x }

/-- mzd_slice.h:78-89 `mzd_slice_init(ff,m,n)`: the array `x` has 16 entries (mzd_slice.h:52). -/
def sliceInit (ff : Gf2e) (fid m n : Nat) : Option Slice := (need (ff.degree ≤ 16)).bind fun _ => some (mzdSliceInit ff fid m n)

/-- mzd_slice.c:57-61 `mzd_slice_set_ui(A,value)`. -/
def sliceSetUi (A : Slice) (value : Word) : Option Slice :=
  onPlanes A A.depth fun i p => (shr value i).bind fun v => some { p with w := mzdSetUi p.nr p.nc p.w (v.getLsbD 0) }

/-- mzd_slice.h:207-212 `mzd_slice_add_elem(A,row,col,elem)`; m4ri_functions.h:52-56 `__mzd_xor_bits`. -/
def sliceAddElem (A : Slice) (row col : Nat) (elem : Word) : Option Slice :=
  onPlanes A A.depth fun i p => (need (row < p.nr ∧ col < p.nc)).bind fun _ => some { p with w := mzdXorBits p.w row col ((elem >>> i) &&& 1#64) }

/-- mzd_slice.h:282-286 `mzd_slice_row_swap(A,rowa,rowb)`. -/
def sliceRowSwap (A : Slice) (a b : Nat) : Option Slice :=
  onPlanes A A.depth fun _ p => (need (a < p.nr ∧ b < p.nr)).bind fun _ => some { p with w := mzdRowSwap p.nc p.w a b }

/-- mzd_slice.h:316-319 `mzd_slice_col_swap(A,cola,colb)`. -/
def sliceColSwap (A : Slice) (a b : Nat) : Option Slice :=
  onPlanes A A.depth fun _ p => (need (a < p.nc ∧ b < p.nc)).bind fun _ => some { p with w := mzdColSwap p.nr p.w a b }

/-- mzd_slice.h:537-547 `mzd_slice_add(C,A,B)`, `C` given; mzd_ptr.h:83-123 `_mzd_ptr_add`. -/
def sliceAdd (C A B : Slice) : Option Slice :=
  if A.fid = B.fid ∧ A.nrows = B.nrows ∧ A.ncols = B.ncols then
    if A.fid = C.fid ∧ A.nrows = C.nrows ∧ A.ncols = C.ncols then
      onPlanes C A.depth fun i c => ((arr A).get i).bind fun a => ((arr B).get i).bind fun b => padd c a b
    else none
  else none

/-- mzd_slice.h:397-405 `mzd_slice_concat(NULL,A,B)`. -/
def sliceConcat (A B : Slice) : Option Slice :=
  (int? (A.ncols + B.ncols)).bind fun n => (sliceInit A.ff A.fid A.nrows n).bind fun C =>
  onPlanes C A.depth fun i c => ((arr A).get i).bind fun a => ((arr B).get i).bind fun b =>
    (need (a.nr = b.nr ∧ c.nr = a.nr ∧ c.nc = a.nc + b.nc)).bind fun _ => some { c with w := mzdConcat a.nr a.nc b.nc c.w a.w b.w }

/-- mzd_slice.h:424-432 `mzd_slice_stack(NULL,A,B)`. -/
def sliceStack (A B : Slice) : Option Slice :=
  (int? (A.nrows + B.nrows)).bind fun m => (sliceInit A.ff A.fid m A.ncols).bind fun C =>
  onPlanes C A.depth fun i c => ((arr A).get i).bind fun a => ((arr B).get i).bind fun b =>
    (need (a.nc = b.nc ∧ c.nr = a.nr + b.nr ∧ c.nc = a.nc)).bind fun _ => some { c with w := mzdStack a.nr b.nr a.nc c.w a.w b.w }

/-- mzd_slice.h:264-270 `mzd_slice_is_zero(A)`. -/
def sliceIsZero (A : Slice) : Option Bool :=
  forC (fun i (r : Bool) => ((arr A).get i).bind fun p => (need (0 < p.nc)).bind fun _ => some (r && mzdIsZero p.nr p.nc p.w)) A.depth true

/-- mzd_slice.h:247-254 `mzd_slice_cmp(A,B) == 0`. -/
def sliceEqual (A B : Slice) : Option Bool :=
  if A.fid ≠ B.fid ∨ A.depth ≠ B.depth then some false
  else forC (fun i (r : Bool) => ((arr A).get i).bind fun p => ((arr B).get i).bind fun q => (need (0 < p.nc ∧ 0 < q.nc)).bind fun _ =>
    some (r && ((p.nr == q.nr && p.nc == q.nc) && mzdEq p.nr p.nc p.w q.w))) A.depth true

/-- permutation.h:120-124 `mzd_slice_apply_p_left_trans(A,P)`. -/
def sliceApplyPLeftTrans (A : Slice) (P : Mzp) : Option Slice :=
  onPlanes A A.depth fun _ p => (need (permOk P (min P.length p.nr) p.nr)).bind fun _ => some { p with w := mzdApplyPLeftTrans p.nr p.nc p.w P }

/-- permutation.h:150-154 `mzd_slice_apply_p_right_trans(A,P)`. -/
def sliceApplyPRightTrans (A : Slice) (P : Mzp) : Option Slice :=
  onPlanes A A.depth fun _ p => (need (permOk P (min P.length p.nc) p.nc)).bind fun _ => some { p with w := mzdApplyPRightTrans p.nr p.nc p.w P }

end M4rie.Chk
