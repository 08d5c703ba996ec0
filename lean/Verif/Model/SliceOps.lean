import Verif.Model.Conv
import Verif.Model.KaraTables
import Verif.Model.Strassen

/-!
# Operations on sliced matrices

`Option` results: `none` models `m4ri_die` or an out-of-bounds access.  Different arguments are assumed not to share
memory unless stated otherwise (`C` may be an operand of `mzd_slice_add`).
-/

namespace M4rie

/-- `x[k] := v` -/
def setSlice (x : Nat → Nat → Nat → Word) (k : Nat) (v : Nat → Nat → Word) : Nat → Nat → Nat → Word :=
  fun k' => if k' = k then v else x k'

/-- xor of the bits `g 0, .., g (n-1)` -/
def xorRange (g : Nat → Bool) : Nat → Bool
  | 0 => false
  | n + 1 => (xorRange g n).xor (g n)

/-- M4RI `mzd_mul(C,A,B,0)`: `A` is `m × k`, `B` is `k × n`. -/
def mzdMul (m k n : Nat) (C A B : Nat → Nat → Word) : Nat → Nat → Word :=
  ofBits fun i p => if i < m ∧ p < n then xorRange (fun l => bitAt A i l && bitAt B l p) k else bitAt C i p

/-- M4RI `mzd_addmul(C,A,B,0)`. -/
def mzdAddmul (m k n : Nat) (C A B : Nat → Nat → Word) : Nat → Nat → Word :=
  ofBits fun i p => if i < m ∧ p < n then (bitAt C i p).xor (xorRange (fun l => bitAt A i l && bitAt B l p) k) else bitAt C i p

/-- M4RI `mzd_write_bit(M,row,col,value)`. -/
def mzdWriteBit (M : Nat → Nat → Word) (row col : Nat) (value : Bool) : Nat → Nat → Word :=
  ofBits fun i p => if i = row ∧ p = col then value else bitAt M i p

/-! ### mzd_ptr.h -/

/-- mzd_ptr.h:38-53 `_mzd_ptr_add_modred(ff,A,X,t)`, `A` and the `X[i]` being `nr × nc`; `ff = none` is `ff == NULL`.
`pow_gen` has `2*degree-1` entries. -/
def ptrAddModred (ff : Option Gf2e) (nr nc : Nat) (A : Nat → Nat → Word) (X : Nat → Nat → Nat → Word) (t : Nat) :
    Option (Nat → Nat → Nat → Word) :=
  if mzdIsZero nr nc A then some X else
  match ff with
  | none => some (setSlice X t (mzdAdd nr nc (X t) (X t) A))
  | some ff =>
    if t < ff.degree then some (setSlice X t (mzdAdd nr nc (X t) (X t) A))
    else if ¬ t < 2 * ff.degree - 1 then none
    else some (forN (fun i X => if ff.powGen t &&& twoPow i ≠ 0#64 then setSlice X i (mzdAdd nr nc (X i) (X i) A) else X) ff.degree X)

/-- mzd_ptr.h:64-81 `_mzd_ptr_add_to_all(ff,A,X,n,t,..)`. -/
def ptrAddToAll (ff : Option Gf2e) (nr nc : Nat) (A : Nat → Nat → Word) (ts : List Nat) (X : Nat → Nat → Nat → Word) :
    Option (Nat → Nat → Nat → Word) :=
  match ff with
  | some ff => ts.foldlM (fun X t => ptrAddModred (some ff) nr nc A X t) X
  | none => some (ts.foldl (fun X t => setSlice X t (mzdAdd nr nc (X t) (X t) A)) X)

/-- mzd_ptr.h:83-123 `_mzd_ptr_add(c,a,b,length)`: the switch executes the additions for the indices `length-1, .., 0`
(for `length > 32` the default case does the same upwards). -/
def ptrAdd (nr nc : Nat) (c a b : Nat → Nat → Nat → Word) (length : Nat) : Nat → Nat → Nat → Word :=
  fun k => if k < length then mzdAdd nr nc (c k) (a k) (b k) else c k

/-- The operand of a product in karatsuba.c: a single matrix `a_i`, or `mzd_add(t1,a_i,a_j)` /
`mzd_sum(t1,n,a_i,a_j,..)` (m4ri_functions.h:80-95).  The temporary is overwritten completely, its old contents are not
modelled. -/
def karaOperand (nr nc : Nat) (A : Nat → Nat → Nat → Word) : List Nat → Nat → Nat → Word
  | [] => fun _ _ => 0#64
  | [i] => A i
  | i :: j :: l => l.foldl (fun T k => mzdAdd nr nc T T (A k)) (mzdAdd nr nc (fun _ _ => 0#64) (A i) (A j))

/-- One statement of a routine in karatsuba.c. -/
def KaraTerm.run (ff : Option Gf2e) (m k n : Nat) (A B : Nat → Nat → Nat → Word) (X : Nat → Nat → Nat → Word) (t : KaraTerm) :
    Option (Nat → Nat → Nat → Word) :=
  ptrAddToAll ff m n (mzdMul m k n (fun _ _ => 0#64) (karaOperand m k A t.as) (karaOperand k n B t.bs)) t.targets X

/-- karatsuba.c: the statements one after another. -/
def karaRun (terms : List KaraTerm) (ff : Option Gf2e) (m k n : Nat) (X A B : Nat → Nat → Nat → Word) :
    Option (Nat → Nat → Nat → Word) :=
  terms.foldlM (KaraTerm.run ff m k n A B) X

/-- karatsuba.c:4-23 `_mzd_ptr_addmul_karatsuba2`: the first product is accumulated directly into `X[1]`. -/
def kara2Run (ff : Option Gf2e) (m k n : Nat) (X A B : Nat → Nat → Nat → Word) : Option (Nat → Nat → Nat → Word) :=
  karaRun karaTerms2 ff m k n
    (setSlice X 1 (mzdAddmul m k n (X 1) (mzdAdd m k (fun _ _ => 0#64) (A 0) (A 1)) (mzdAdd k n (fun _ _ => 0#64) (B 0) (B 1)))) A B

/-- The routines `_mzd_ptr_addmul_karatsuba2` .. `_mzd_ptr_addmul_karatsuba16` of karatsuba.c (`none`: no such routine). -/
def ptrAddmulKaratsuba? (d : Nat) (ff : Option Gf2e) (m k n : Nat) (X A B : Nat → Nat → Nat → Word) : Option (Nat → Nat → Nat → Word) :=
  match d with
  | 2 => kara2Run ff m k n X A B
  | 3 => karaRun karaTerms3 ff m k n X A B
  | 4 => karaRun karaTerms4 ff m k n X A B
  | 5 => karaRun karaTerms5 ff m k n X A B
  | 6 => karaRun karaTerms6 ff m k n X A B
  | 7 => karaRun karaTerms7 ff m k n X A B
  | 8 => karaRun karaTerms8 ff m k n X A B
  | 9 => karaRun karaTerms9 ff m k n X A B
  | 10 => karaRun karaTerms10 ff m k n X A B
  | 11 => karaRun karaTerms11 ff m k n X A B
  | 12 => karaRun karaTerms12 ff m k n X A B
  | 13 => karaRun karaTerms13 ff m k n X A B
  | 14 => karaRun karaTerms14 ff m k n X A B
  | 15 => karaRun karaTerms15 ff m k n X A B
  | 16 => karaRun karaTerms16 ff m k n X A B
  | _ => none

/-! ### mzd_slice.h, mzd_slice.c -/

/-- mzd_slice.h:164-172 `mzd_slice_copy(B,A)`, `B` given. -/
def mzdSliceCopy (B A : Slice) : Slice :=
  { B with x := fun k => if k < A.depth then mzdCopy A.nrows A.ncols (B.x k) (A.x k) else B.x k }

/-- mzd_slice.h:186-192 `mzd_slice_read_elem(A,row,col)`: `ret |= mzd_read_bit(A->x[i],row,col)<<i`. -/
def mzdSliceReadElem (A : Slice) (row col : Nat) : Word :=
  forN (fun i ret => ret ||| ((if bitAt (A.x i) row col then 1#64 else 0#64) <<< i)) A.depth 0#64

/-- mzd_slice.h:207-212 `mzd_slice_add_elem(A,row,col,elem)`; in iteration `i` the variable `elem` has been shifted
right `i` times. -/
def mzdSliceAddElem (A : Slice) (row col : Nat) (elem : Word) : Slice :=
  { A with x := forN (fun i x => setSlice x i (mzdXorBits (x i) row col ((elem >>> i) &&& 1#64))) A.depth A.x }

/-- mzd_slice.h:227-232 `mzd_slice_write_elem(A,row,col,elem)`. -/
def mzdSliceWriteElem (A : Slice) (row col : Nat) (elem : Word) : Slice :=
  { A with x := forN (fun i x => setSlice x i (mzdWriteBit (x i) row col (((elem >>> i) &&& 1#64) != 0#64))) A.depth A.x }

/-- mzd_slice.h:247-254 `mzd_slice_cmp(A,B) == 0` (`mzd_cmp` of matrices of different dimensions is not 0). -/
def mzdSliceEq (A B : Slice) : Bool :=
  A.fid == B.fid && A.depth == B.depth && (List.range A.depth).all fun k =>
    (A.nrows == B.nrows && A.ncols == B.ncols) && mzdEq A.nrows A.ncols (A.x k) (B.x k)

/-- mzd_slice.h:282-286 `mzd_slice_row_swap`. -/
def mzdSliceRowSwap (A : Slice) (a b : Nat) : Slice :=
  { A with x := fun k => if k < A.depth then mzdRowSwap A.ncols (A.x k) a b else A.x k }

/-- mzd_slice.h:301-304 `mzd_slice_copy_row(B,i,A,j)`. -/
def mzdSliceCopyRow (B : Slice) (i : Nat) (A : Slice) (j : Nat) : Slice :=
  { B with x := fun k => if k < A.depth then mzdCopyRow A.ncols (B.x k) i (A.x k) j else B.x k }

/-- mzd_slice.h:316-319 `mzd_slice_col_swap`. -/
def mzdSliceColSwap (A : Slice) (a b : Nat) : Slice :=
  { A with x := fun k => if k < A.depth then mzdColSwap A.nrows (A.x k) a b else A.x k }

/-- mzd_slice.h:331-335 `mzd_slice_col_swap_in_rows` (the loop runs over `e < degree`). -/
def mzdSliceColSwapInRows (A : Slice) (a b start stop : Nat) : Slice :=
  { A with x := fun k => if k < A.ff.degree then mzdColSwapInRows (A.x k) a b start stop else A.x k }

/-- mzd_slice.h:350-353 `mzd_slice_row_add`. -/
def mzdSliceRowAdd (A : Slice) (src dst : Nat) : Slice :=
  { A with x := fun k => if k < A.depth then mzdRowAdd A.ncols (A.x k) src dst else A.x k }

/-- mzd_slice.h:397-405 `mzd_slice_concat(NULL,A,B)`. -/
def mzdSliceConcat (A B : Slice) : Slice :=
  let C := mzdSliceInit A.ff A.fid A.nrows (A.ncols + B.ncols)
  { C with x := fun k => if k < A.depth then mzdConcat A.nrows A.ncols B.ncols (C.x k) (A.x k) (B.x k) else C.x k }

/-- mzd_slice.h:424-432 `mzd_slice_stack(NULL,A,B)`. -/
def mzdSliceStack (A B : Slice) : Slice :=
  let C := mzdSliceInit A.ff A.fid (A.nrows + B.nrows) A.ncols
  { C with x := fun k => if k < A.depth then mzdStack A.nrows B.nrows A.ncols (C.x k) (A.x k) (B.x k) else C.x k }

/-- mzd_slice.h:447-456 `mzd_slice_submatrix(NULL,A,lowr,lowc,highr,highc)`. -/
def mzdSliceSubmatrix (A : Slice) (lowr lowc highr highc : Nat) : Slice :=
  let S := mzdSliceInit A.ff A.fid (highr - lowr) (highc - lowc)
  { S with x := fun k => if k < A.depth then mzdSubmatrix (S.x k) (A.x k) lowr lowc highr highc else S.x k }

/-- mzd_slice.h:480-492 `mzd_slice_init_window(A,lowr,lowc,highr,highc)`. -/
def mzdSliceWindow (A : Slice) (lowr lowc highr highc : Nat) : Slice :=
  { A with nrows := highr - lowr, ncols := highc - lowc, x := fun k => mzdWindow (A.x k) lowr lowc }

/-- The effect on `A` of code `f` that writes through the window `mzd_slice_init_window(A,lr,lc,hr,hc)`. -/
def onSWindow (A : Slice) (lr lc hr hc : Nat) (f : Slice → Option Slice) : Option Slice :=
  (f (mzdSliceWindow A lr lc hr hc)).map fun W => { A with x := fun k => mzdWindowWrite (A.x k) lr lc (W.x k) }

/-- mzd_slice.h:537-547 `mzd_slice_add(C,A,B)`, `C` given (`_mzd_slice_add`, mzd_slice.h:518-521). -/
def mzdSliceAdd? (C A B : Slice) : Option Slice :=
  if A.fid = B.fid ∧ A.nrows = B.nrows ∧ A.ncols = B.ncols then
    if A.fid = C.fid ∧ A.nrows = C.nrows ∧ A.ncols = C.ncols then
      some { C with x := ptrAdd A.nrows A.ncols C.x A.x B.x A.depth }
    else none
  else none

/-- mzd_slice.c:43-55 `mzd_slice_addmul_scalar(C,a,B)` (the loop is also the body of `mzd_slice_mul_scalar`). -/
def mzdSliceAddmulScalar? (C : Slice) (a : Word) (B : Slice) : Option Slice :=
  if C.fid = B.fid ∧ C.nrows = B.nrows ∧ C.ncols = B.ncols then
    (forNM (fun i x => if a &&& twoPow i ≠ 0#64 then
      forNM (fun j x => ptrAddModred (some B.ff) B.nrows B.ncols (B.x j) x (i + j)) B.depth x else some x) B.ff.degree C.x).map
      fun x => { C with x := x }
  else none

/-- mzd_slice.c:25-41 `mzd_slice_mul_scalar(C,a,B)`, `C` given. -/
def mzdSliceMulScalar? (C : Slice) (a : Word) (B : Slice) : Option Slice := mzdSliceAddmulScalar? (mzdSliceSetUi C 0#64) a B

/-- mzd_slice.c:25-41 `mzd_slice_mul_scalar(NULL,a,B)`. -/
def mzdSliceMulScalarNew? (a : Word) (B : Slice) : Option Slice :=
  mzdSliceAddmulScalar? (mzdSliceInit B.ff B.fid B.nrows B.ncols) a B

/-- mzd_slice.c:82-98 `_mzd_slice_addmul_naive(C,A,B)`, `C` given. -/
def mzdSliceAddmulNaive? (C A B : Slice) : Option Slice :=
  (forNM (fun i x => forNM (fun j x =>
      ptrAddModred (some A.ff) A.nrows B.ncols (mzdMul A.nrows A.ncols B.ncols (fun _ _ => 0#64) (A.x i) (B.x j)) x (i + j))
    A.ff.degree x) A.ff.degree C.x).map fun x => { C with x := x }

/-- mzd_slice.h:624-647 `_mzd_slice_addmul_karatsuba(C,A,B)`, `C` given. -/
def mzdSliceAddmulKara? (C A B : Slice) : Option Slice :=
  if 2 ≤ A.ff.degree ∧ A.ff.degree ≤ 16 then
    (ptrAddmulKaratsuba? A.ff.degree (some A.ff) A.nrows A.ncols B.ncols C.x A.x B.x).map fun x => { C with x := x }
  else mzdSliceAddmulNaive? C A B

/-- mzd_slice.h:661-670 `mzd_slice_mul_karatsuba(C,A,B)`, `C` given (also `mzd_slice_mul`). -/
def mzdSliceMulKaratsuba? (C A B : Slice) : Option Slice :=
  if A.ncols ≠ B.nrows ∨ A.fid ≠ B.fid then none
  else if C.fid ≠ A.fid ∨ C.nrows ≠ A.nrows ∨ C.ncols ≠ B.ncols then none
  else mzdSliceAddmulKara? (mzdSliceSetUi C 0#64) A B

/-- mzd_slice.h:661-670 `mzd_slice_mul_karatsuba(NULL,A,B)`. -/
def mzdSliceMulKaratsubaNew? (A B : Slice) : Option Slice :=
  if A.ncols ≠ B.nrows ∨ A.fid ≠ B.fid then none
  else mzdSliceAddmulKara? (mzdSliceInit A.ff A.fid A.nrows B.ncols) A B

/-- mzd_slice.h:684-691 `mzd_slice_addmul_karatsuba(C,A,B)` (also `mzd_slice_addmul`). -/
def mzdSliceAddmulKaratsuba? (C A B : Slice) : Option Slice :=
  if A.ncols ≠ B.nrows ∨ A.fid ≠ B.fid then none
  else if C.fid ≠ A.fid ∨ C.nrows ≠ A.nrows ∨ C.ncols ≠ B.ncols then none
  else mzdSliceAddmulKara? C A B

/-! ### conversion.h: packed products through slices, row rescaling -/

/-- conversion.h:148-165 `_mzed_addmul_karatsuba(C,A,B)`, `C` given. -/
def mzedAddmulKara? (C A B : Mzed) : Option Mzed :=
  (mzedSliceNew? C).bind fun Cs =>
  (mzedSliceNew? A).bind fun As =>
  (mzedSliceNew? B).bind fun Bs =>
  (mzdSliceAddmulKara? Cs As Bs).bind fun Cs => mzedCling? C Cs

/-- conversion.h:177-186 `mzed_mul_karatsuba(C,A,B)`, `C` given. -/
def mzedMulKaratsuba? (C A B : Mzed) : Option Mzed :=
  if A.ncols ≠ B.nrows ∨ A.fid ≠ B.fid then none
  else if C.fid ≠ A.fid ∨ C.nrows ≠ A.nrows ∨ C.ncols ≠ B.ncols then none
  else mzedAddmulKara? (mzedSetUi C 0#64) A B

/-- conversion.h:196-203 `mzed_addmul_karatsuba(C,A,B)`. -/
def mzedAddmulKaratsuba? (C A B : Mzed) : Option Mzed :=
  if A.ncols ≠ B.nrows ∨ A.fid ≠ B.fid then none
  else if C.fid ≠ A.fid ∨ C.nrows ≠ A.nrows ∨ C.ncols ≠ B.ncols then none
  else mzedAddmulKara? C A B

/-- conversion.h:286-295 `mzd_slice_rescale_row(A,r,c,x)`: the row is copied to a matrix with the single row 0, but row
`r` of that matrix is rescaled, which does not exist for `r ≥ 1`. -/
def mzdSliceRescaleRow? (A : Slice) (r c : Nat) (x : Word) : Option Slice :=
  onSWindow A r 0 (r + 1) A.ncols fun Aw =>
    (mzedClingNew? Aw).bind fun Awe =>
    if ¬ r < Awe.nrows then none else mzedSlice? Aw (mzedRescaleRow Awe r c x)

/-! ### mzed.c: the multiplication dispatch -/

/-- the parameters of the environment used by the dispatch: M4RI's codebook and `__M4RI_MUL_BLOCKSIZE`,
`(int)sqrt((double)x)` and `__M4RI_CPU_L2_CACHE` -/
structure MulEnv where
  cb : Codebook
  bs : Nat
  sq : Nat → Nat
  l2 : Nat

/-- mzed.c:102-108 `_mzed_mul(C,A,B)`. -/
def mzedMulRaw? (env : MulEnv) (C A B : Mzed) : Option Mzed :=
  if A.nrows ≥ 512 ∧ A.ncols ≥ 512 ∧ B.ncols ≥ 512 then mzedAddmulKara? C A B
  else mulStrassenF (mzedMulNewtonJohnAcc? env.cb env.bs) (strassenCutoff env.sq env.l2 A.ff.degree A.w) (strassenDepth A B) C A B

/-- mzed.c:110-116 `_mzed_addmul(C,A,B)`. -/
def mzedAddmulRaw? (env : MulEnv) (C A B : Mzed) : Option Mzed :=
  if A.nrows ≥ 512 ∧ A.ncols ≥ 512 ∧ B.ncols ≥ 512 then mzedAddmulKara? C A B
  else addmulStrassenF (mzedMulNewtonJohnAcc? env.cb env.bs) (strassenCutoff env.sq env.l2 A.ff.degree A.w) (strassenDepth A B) C A B

/-- mzed.c:90-94 `mzed_mul(C,A,B)`, `C` given. -/
def mzedMul? (env : MulEnv) (C A B : Mzed) : Option Mzed := (mzedMulInit? C A B true).bind fun C => mzedMulRaw? env C A B

/-- mzed.c:96-100 `mzed_addmul(C,A,B)`. -/
def mzedAddmul? (env : MulEnv) (C A B : Mzed) : Option Mzed := (mzedMulInit? C A B false).bind fun C => mzedAddmulRaw? env C A B

end M4rie
