import Verif.Model.SliceOps
import Verif.Spec.Cost

/-!
# The multiplications with a log of the products they make

The same code as in Model/Strassen and Model/SliceOps, statement by statement, with an entry in the log for every call of `mzd_mul`, `mzd_addmul`
(M4RI) and `_mzed_mul_newton_john`.
-/

namespace M4rie
open Spec

/-- an entry in the log -/
def logProduct (p : Product) : Logged Unit := fun s => some ((), s ++ [p])

/-- a computation without products -/
def quietly {α : Type} (o : Option α) : Logged α := fun s => o.map fun a => (a, s)

/-! ### karatsuba.c -/

/-- karatsuba.c: one statement, see `KaraTerm.run`. -/
def KaraTerm.runL (ff : Option Gf2e) (m k n : Nat) (A B : Nat → Nat → Nat → Word) (X : Nat → Nat → Nat → Word) (t : KaraTerm) :
    Logged (Nat → Nat → Nat → Word) := do
  let T := mzdMul m k n (fun _ _ => 0#64) (karaOperand m k A t.as) (karaOperand k n B t.bs)
  logProduct (.gf2 m k n)
  quietly (ptrAddToAll ff m n T t.targets X)

/-- karatsuba.c: the statements one after another. -/
def karaRunL (terms : List KaraTerm) (ff : Option Gf2e) (m k n : Nat) (X A B : Nat → Nat → Nat → Word) : Logged (Nat → Nat → Nat → Word) :=
  terms.foldlM (KaraTerm.runL ff m k n A B) X

/-- karatsuba.c:4-23 `_mzd_ptr_addmul_karatsuba2`. -/
def kara2RunL (ff : Option Gf2e) (m k n : Nat) (X A B : Nat → Nat → Nat → Word) : Logged (Nat → Nat → Nat → Word) := do
  let X1 := mzdAddmul m k n (X 1) (mzdAdd m k (fun _ _ => 0#64) (A 0) (A 1)) (mzdAdd k n (fun _ _ => 0#64) (B 0) (B 1))
  logProduct (.gf2 m k n)
  karaRunL karaTerms2 ff m k n (setSlice X 1 X1) A B

/-- karatsuba.c: `_mzd_ptr_addmul_karatsuba2` .. `_mzd_ptr_addmul_karatsuba16`. -/
def ptrAddmulKaratsubaL (d : Nat) (ff : Option Gf2e) (m k n : Nat) (X A B : Nat → Nat → Nat → Word) : Logged (Nat → Nat → Nat → Word) :=
  match d with
  | 2 => kara2RunL ff m k n X A B
  | 3 => karaRunL karaTerms3 ff m k n X A B
  | 4 => karaRunL karaTerms4 ff m k n X A B
  | 5 => karaRunL karaTerms5 ff m k n X A B
  | 6 => karaRunL karaTerms6 ff m k n X A B
  | 7 => karaRunL karaTerms7 ff m k n X A B
  | 8 => karaRunL karaTerms8 ff m k n X A B
  | 9 => karaRunL karaTerms9 ff m k n X A B
  | 10 => karaRunL karaTerms10 ff m k n X A B
  | 11 => karaRunL karaTerms11 ff m k n X A B
  | 12 => karaRunL karaTerms12 ff m k n X A B
  | 13 => karaRunL karaTerms13 ff m k n X A B
  | 14 => karaRunL karaTerms14 ff m k n X A B
  | 15 => karaRunL karaTerms15 ff m k n X A B
  | 16 => karaRunL karaTerms16 ff m k n X A B
  | _ => quietly none

/-! ### mzd_slice.h, mzd_slice.c, conversion.h -/

/-- `for (i = 0; i < n; i++)` with a log -/
def forNL {α : Type} (f : Nat → α → Logged α) : Nat → α → Logged α
  | 0, a => pure a
  | n + 1, a => forNL f n a >>= f n

/-- mzd_slice.c:82-98 `_mzd_slice_addmul_naive(C,A,B)`, `C` given. -/
def mzdSliceAddmulNaiveL (C A B : Slice) : Logged Slice := do
  let x ← forNL (fun i x => forNL (fun j x => do
      let T := mzdMul A.nrows A.ncols B.ncols (fun _ _ => 0#64) (A.x i) (B.x j)
      logProduct (.gf2 A.nrows A.ncols B.ncols)
      quietly (ptrAddModred (some A.ff) A.nrows B.ncols T x (i + j))) A.ff.degree x) A.ff.degree C.x
  pure { C with x := x }

/-- mzd_slice.h:624-647 `_mzd_slice_addmul_karatsuba(C,A,B)`, `C` given. -/
def mzdSliceAddmulKaraL (C A B : Slice) : Logged Slice :=
  if 2 ≤ A.ff.degree ∧ A.ff.degree ≤ 16 then do
    let x ← ptrAddmulKaratsubaL A.ff.degree (some A.ff) A.nrows A.ncols B.ncols C.x A.x B.x
    pure { C with x := x }
  else mzdSliceAddmulNaiveL C A B

/-- mzd_slice.h:661-670 `mzd_slice_mul_karatsuba(C,A,B)`, `C` given (also `mzd_slice_mul`). -/
def mzdSliceMulKaratsubaL (C A B : Slice) : Logged Slice :=
  if A.ncols ≠ B.nrows ∨ A.fid ≠ B.fid then quietly none
  else if C.fid ≠ A.fid ∨ C.nrows ≠ A.nrows ∨ C.ncols ≠ B.ncols then quietly none
  else mzdSliceAddmulKaraL (mzdSliceSetUi C 0#64) A B

/-- mzd_slice.h:684-691 `mzd_slice_addmul_karatsuba(C,A,B)` (also `mzd_slice_addmul`). -/
def mzdSliceAddmulKaratsubaL (C A B : Slice) : Logged Slice :=
  if A.ncols ≠ B.nrows ∨ A.fid ≠ B.fid then quietly none
  else if C.fid ≠ A.fid ∨ C.nrows ≠ A.nrows ∨ C.ncols ≠ B.ncols then quietly none
  else mzdSliceAddmulKaraL C A B

/-- conversion.h:148-165 `_mzed_addmul_karatsuba(C,A,B)`, `C` given. -/
def mzedAddmulKaraL (C A B : Mzed) : Logged Mzed := do
  let Cs ← quietly (mzedSliceNew? C)
  let As ← quietly (mzedSliceNew? A)
  let Bs ← quietly (mzedSliceNew? B)
  let Cs ← mzdSliceAddmulKaraL Cs As Bs
  quietly (mzedCling? C Cs)

/-! ### strassen.c -/

/-- `_mzed_mul_newton_john` (newton_john.c:412-495) with an entry in the log. -/
def newtonJohnL (nj : Mzed → Mzed → Mzed → Option Mzed) (C A B : Mzed) : Logged Mzed := do
  logProduct (.newtonJohn A.nrows A.ncols B.ncols)
  quietly (nj C A B)

/-- code working on a window (mzed.h:187-195) -/
def onWindowL (C : Mzed) (lr lc hr hc : Nat) (f : Mzed → Logged Mzed) : Logged Mzed := do
  let W ← f (mzedWindow C lr lc hr hc)
  pure { C with words := mzdWindowWrite C.words lr (C.w * lc) W.words }

/-- strassen.c:76-132 one level of `_mzed_mul_strassen`; `mul` is the recursive call. -/
def strassenMulStepL (mul : Mzed → Mzed → Mzed → Logged Mzed) (C A B : Mzed) (m k n : Nat) : Logged Mzed := do
  let A11 := mzedWindow A 0 0 m k
  let A12 := mzedWindow A 0 k m (2 * k)
  let A21 := mzedWindow A m 0 (2 * m) k
  let A22 := mzedWindow A m k (2 * m) (2 * k)
  let B11 := mzedWindow B 0 0 k n
  let B12 := mzedWindow B 0 n k (2 * n)
  let B21 := mzedWindow B k 0 (2 * k) n
  let B22 := mzedWindow B k n (2 * k) (2 * n)
  let c11 := fun C => mzedWindow C 0 0 m n
  let c21 := fun C => mzedWindow C m 0 (2 * m) n
  let c22 := fun C => mzedWindow C m n (2 * m) (2 * n)
  let on11 := fun C => onWindowL C 0 0 m n
  let on12 := fun C => onWindowL C 0 n m (2 * n)
  let on21 := fun C => onWindowL C m 0 (2 * m) n
  let on22 := fun C => onWindowL C m n (2 * m) (2 * n)
  let Wmk := mzedInit A.ff A.fid m k
  let Wkn := mzedInit A.ff A.fid k n
  let Wkn := mzedAddRaw Wkn B22 B12
  let Wmk := mzedAddRaw Wmk A22 A12
  let C ← on21 C fun W => mul W Wmk Wkn
  let Wmk := mzedAddRaw Wmk A22 A21
  let Wkn := mzedAddRaw Wkn B22 B21
  let C ← on22 C fun W => mul W Wmk Wkn
  let Wkn := mzedAddRaw Wkn Wkn B12
  let Wmk := mzedAddRaw Wmk Wmk A12
  let C ← on11 C fun W => mul W Wmk Wkn
  let Wmk := mzedAddRaw Wmk Wmk A11
  let C ← on12 C fun W => mul W Wmk B12
  let C ← on12 C fun W => pure (mzedAddRaw W W (c22 C))
  -- Wmk = mzed_mul_strassen(NULL, A12, B21, cutoff)
  let Wmk ← mul (mzedInit A12.ff A12.fid A12.nrows B21.ncols) A12 B21
  let C ← on11 C fun W => pure (mzedAddRaw W W Wmk)
  let C ← on12 C fun W => pure (mzedAddRaw W (c11 C) W)
  let C ← on11 C fun W => pure (mzedAddRaw W (c21 C) W)
  let Wkn := mzedAddRaw Wkn Wkn B11
  let C ← on21 C fun W => mul W A21 Wkn
  let C ← on21 C fun W => pure (mzedAddRaw W (c11 C) W)
  let C ← on22 C fun W => pure (mzedAddRaw W W (c11 C))
  let C ← on11 C fun W => mul W A11 B11
  on11 C fun W => pure (mzedAddRaw W W Wmk)

/-- strassen.c:220-272 the same for `_mzed_addmul_strassen`; `mul`, `addmul` are the recursive calls. -/
def strassenAddmulStepL (mul addmul : Mzed → Mzed → Mzed → Logged Mzed) (C A B : Mzed) (m k n : Nat) : Logged Mzed := do
  let A11 := mzedWindow A 0 0 m k
  let A12 := mzedWindow A 0 k m (2 * k)
  let A21 := mzedWindow A m 0 (2 * m) k
  let A22 := mzedWindow A m k (2 * m) (2 * k)
  let B11 := mzedWindow B 0 0 k n
  let B12 := mzedWindow B 0 n k (2 * n)
  let B21 := mzedWindow B k 0 (2 * k) n
  let B22 := mzedWindow B k n (2 * k) (2 * n)
  let on11 := fun C => onWindowL C 0 0 m n
  let on12 := fun C => onWindowL C 0 n m (2 * n)
  let on21 := fun C => onWindowL C m 0 (2 * m) n
  let on22 := fun C => onWindowL C m n (2 * m) (2 * n)
  let S := mzedInit A.ff A.fid m k
  let T := mzedInit A.ff A.fid k n
  let U := mzedInit A.ff A.fid m n
  let S := mzedAddRaw S A22 A21
  let T := mzedAddRaw T B22 B21
  let U ← mul U S T
  let C ← on22 C fun W => pure (mzedAddRaw W U W)
  let C ← on12 C fun W => pure (mzedAddRaw W U W)
  let U ← mul U A12 B21
  let C ← on11 C fun W => pure (mzedAddRaw W U W)
  let C ← on11 C fun W => addmul W A11 B11
  let S := mzedAddRaw S S A12
  let T := mzedAddRaw T T B12
  let U ← addmul U S T
  let C ← on12 C fun W => pure (mzedAddRaw W W U)
  let S := mzedAddRaw S A11 S
  let C ← on12 C fun W => addmul W S B12
  let T := mzedAddRaw T B11 T
  let C ← on21 C fun W => addmul W A21 T
  let S := mzedAddRaw S A22 A12
  let T := mzedAddRaw T B22 B12
  let U ← addmul U S T
  let C ← on21 C fun W => pure (mzedAddRaw W W U)
  on22 C fun W => pure (mzedAddRaw W W U)

/-- strassen.c:146-182 / 289-323 the rows and columns left over by the rounding. -/
def strassenRestL (nj : Mzed → Mzed → Mzed → Option Mzed) (clear : Bool) (C A B : Mzed) (m k n m2 k2 n2 : Nat) : Logged Mzed :=
  let cl := fun W => if clear then mzedSetUi W 0#64 else W
  (if n > n2 then onWindowL C 0 n2 m n fun W => newtonJohnL nj (cl W) A (mzedWindow B 0 n2 k n) else pure C) >>= fun C =>
  (if m > m2 then onWindowL C m2 0 m n2 fun W => newtonJohnL nj (cl W) (mzedWindow A m2 0 m k) (mzedWindow B 0 0 k n2) else pure C) >>= fun C =>
  if k > k2 then onWindowL C 0 0 m2 n2 fun W => newtonJohnL nj W (mzedWindow A 0 k2 m2 k) (mzedWindow B k2 0 k n2) else pure C

/-- strassen.c:43-185 `_mzed_mul_strassen(C,A,B,cutoff)`. -/
def mulStrassenL (nj : Mzed → Mzed → Mzed → Option Mzed) (cutoff : Int) : Nat → Mzed → Mzed → Mzed → Logged Mzed
  | 0, _, _, _ => quietly none
  | fuel + 1, C, A, B =>
    if C.nrows = 0 ∧ C.ncols = 0 then pure C
    else if strassenBase cutoff A.nrows A.ncols B.ncols then do
      let Cbar ← newtonJohnL nj (mzedInit C.ff C.fid C.nrows C.ncols) A B
      quietly (mzedCopy? C Cbar)
    else do
      let m := halfDim A.w A.nrows
      let k := halfDim A.w A.ncols
      let n := halfDim A.w B.ncols
      let C ← strassenMulStepL (mulStrassenL nj cutoff fuel) C A B m k n
      strassenRestL nj true C A B A.nrows A.ncols B.ncols (2 * m) (2 * k) (2 * n)

/-- strassen.c:187-326 `_mzed_addmul_strassen(C,A,B,cutoff)`. -/
def addmulStrassenL (nj : Mzed → Mzed → Mzed → Option Mzed) (cutoff : Int) : Nat → Mzed → Mzed → Mzed → Logged Mzed
  | 0, _, _, _ => quietly none
  | fuel + 1, C, A, B =>
    if C.nrows = 0 ∧ C.ncols = 0 then pure C
    else if strassenBase cutoff A.nrows A.ncols B.ncols then do
      let Cbar ← quietly (mzedCopy? (mzedInit C.ff C.fid C.nrows C.ncols) C)
      let Cbar ← newtonJohnL nj Cbar A B
      quietly (mzedCopy? C Cbar)
    else do
      let m := halfDim A.w A.nrows
      let k := halfDim A.w A.ncols
      let n := halfDim A.w B.ncols
      let C ← strassenAddmulStepL (mulStrassenL nj cutoff fuel) (addmulStrassenL nj cutoff fuel) C A B m k n
      strassenRestL nj false C A B A.nrows A.ncols B.ncols (2 * m) (2 * k) (2 * n)

/-- strassen.c:33-36 `mzed_mul_strassen(C,A,B,cutoff)`, `C != NULL`. -/
def mzedMulStrassenL (cb : Codebook) (bs : Nat) (C A B : Mzed) (cutoff : Int) : Logged Mzed := do
  let C ← quietly (mzedMulInit? C A B true)
  mulStrassenL (mzedMulNewtonJohnAcc? cb bs) cutoff (strassenDepth A B) C A B

/-- strassen.c:38-41 `mzed_addmul_strassen(C,A,B,cutoff)`, `C != NULL`. -/
def mzedAddmulStrassenL (cb : Codebook) (bs : Nat) (C A B : Mzed) (cutoff : Int) : Logged Mzed := do
  let C ← quietly (mzedMulInit? C A B false)
  addmulStrassenL (mzedMulNewtonJohnAcc? cb bs) cutoff (strassenDepth A B) C A B

/-! ### mzed.c -/

/-- mzed.c:90-94 `mzed_mul(C,A,B)`, `C` given, and mzed.c:102-108 `_mzed_mul(C,A,B)`. -/
def mzedMulL (env : MulEnv) (C A B : Mzed) : Logged Mzed := do
  let C ← quietly (mzedMulInit? C A B true)
  if A.nrows ≥ 512 ∧ A.ncols ≥ 512 ∧ B.ncols ≥ 512 then mzedAddmulKaraL C A B
  else mulStrassenL (mzedMulNewtonJohnAcc? env.cb env.bs) (strassenCutoff env.sq env.l2 A.ff.degree A.w) (strassenDepth A B) C A B

/-- mzed.c:96-100 `mzed_addmul(C,A,B)` and mzed.c:110-116 `_mzed_addmul(C,A,B)`. -/
def mzedAddmulL (env : MulEnv) (C A B : Mzed) : Logged Mzed := do
  let C ← quietly (mzedMulInit? C A B false)
  if A.nrows ≥ 512 ∧ A.ncols ≥ 512 ∧ B.ncols ≥ 512 then mzedAddmulKaraL C A B
  else addmulStrassenL (mzedMulNewtonJohnAcc? env.cb env.bs) (strassenCutoff env.sq env.l2 A.ff.degree A.w) (strassenDepth A B) C A B

end M4rie
