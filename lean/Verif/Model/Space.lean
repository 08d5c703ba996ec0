import Verif.Model.SliceOps
import Verif.Spec.Space

/-!
# The multiplications with a trace of the memory they allocate and release

The same code as in Model/Strassen and Model/SliceOps, statement by statement, with an entry in the trace for every matrix and every table that is created or released.  The sizes are
those of the contents; headers, arrays of row pointers, the padding M4RI may add to a row, and what M4RI's own functions allocate are not counted.
-/

namespace M4rie
open Spec

/-- a block of `n` words is allocated -/
def getBlock (n : Nat) : Traced Unit := fun s => some ((), s ++ [.get n])

/-- a block of `n` words is released -/
def putBlock (n : Nat) : Traced Unit := fun s => some ((), s ++ [.put n])

/-- a computation that allocates and releases nothing -/
def inPlace {α : Type} (o : Option α) : Traced α := fun s => o.map fun a => (a, s)

/-- `n` times the same -/
def timesT (n : Nat) (x : Traced Unit) : Traced Unit := match n with
  | 0 => pure ()
  | n + 1 => timesT n x >>= fun _ => x

/-- mzed.c:28-37 `mzed_init(ff,m,n)` -/
def mzedInitT (ff : Gf2e) (fid m n : Nat) : Traced Mzed := do
  getBlock (packedWords (degreeToW ff.degree) m n)
  pure (mzedInit ff fid m n)

/-- mzed.c:39-42 `mzed_free` of a matrix created as `m × n` -/
def mzedFreeT (ff : Gf2e) (m n : Nat) : Traced Unit := putBlock (packedWords (degreeToW ff.degree) m n)

/-- newton_john.c:32-38 `njt_mzed_init(ff,n)` -/
def njtInitT (ff : Gf2e) (n : Nat) : Traced Unit := do
  getBlock (2 ^ ff.degree / 2)
  getBlock (packedWords (degreeToW ff.degree) (2 ^ ff.degree) n)
  getBlock (packedWords (degreeToW ff.degree) ff.degree n)

/-- newton_john.c:40-45 `njt_mzed_free` -/
def njtFreeT (ff : Gf2e) (n : Nat) : Traced Unit := do
  putBlock (packedWords (degreeToW ff.degree) ff.degree n)
  putBlock (packedWords (degreeToW ff.degree) (2 ^ ff.degree) n)
  putBlock (2 ^ ff.degree / 2)

/-- newton_john.c:412-495 `_mzed_mul_newton_john(C,A,B)`: for at least `degree` rows eight tables are created (416-423) and released (492-493); `nj` is the function without trace,
which works in place in between. -/
def newtonJohnT (nj : Mzed → Mzed → Mzed → Option Mzed) (C A B : Mzed) : Traced Mzed :=
  if A.ff.degree > A.nrows then inPlace (nj C A B)
  else do
    timesT 8 (njtInitT B.ff B.ncols)
    let C ← inPlace (nj C A B)
    timesT 8 (njtFreeT B.ff B.ncols)
    pure C

/-! ### strassen.c -/

/-- code working on a window (mzed.h:187-195); windows own no contents -/
def onWindowT (C : Mzed) (lr lc hr hc : Nat) (f : Mzed → Traced Mzed) : Traced Mzed := do
  let W ← f (mzedWindow C lr lc hr hc)
  pure { C with words := mzdWindowWrite C.words lr (C.w * lc) W.words }

/-- strassen.c:76-144 one level of `_mzed_mul_strassen`; `mul` is the recursive call. -/
def strassenMulStepT (mul : Mzed → Mzed → Mzed → Traced Mzed) (C A B : Mzed) (m k n : Nat) : Traced Mzed := do
  let A11 := mzedWindow A 0 0 m k
  let A12 := mzedWindow A 0 k m (2 * k)
  let A21 := mzedWindow A m 0 (2 * m) k
  let A22 := mzedWindow A m k (2 * m) (2 * k)
  let B11 := mzedWindow B 0 0 k n
  let B12 := mzedWindow B 0 n k (2 * n)
  let B21 := mzedWindow B k 0 (2 * k) n
  let B22 := mzedWindow B k n (2 * k) (2 * n)
  let c11 := fun C => mzedWindow C 0 0 m n
  let c21 := fun C => mzedWindow C m 0 (2 * m) n
  let c22 := fun C => mzedWindow C m n (2 * m) (2 * n)
  let on11 := fun C => onWindowT C 0 0 m n
  let on12 := fun C => onWindowT C 0 n m (2 * n)
  let on21 := fun C => onWindowT C m 0 (2 * m) n
  let on22 := fun C => onWindowT C m n (2 * m) (2 * n)
  let Wmk ← mzedInitT A.ff A.fid m k
  let Wkn ← mzedInitT A.ff A.fid k n
  let Wkn := mzedAddRaw Wkn B22 B12
  let Wmk := mzedAddRaw Wmk A22 A12
  let C ← on21 C fun W => mul W Wmk Wkn
  let Wmk := mzedAddRaw Wmk A22 A21
  let Wkn := mzedAddRaw Wkn B22 B21
  let C ← on22 C fun W => mul W Wmk Wkn
  let Wkn := mzedAddRaw Wkn Wkn B12
  let Wmk := mzedAddRaw Wmk Wmk A12
  let C ← on11 C fun W => mul W Wmk Wkn
  let Wmk := mzedAddRaw Wmk Wmk A11
  let C ← on12 C fun W => mul W Wmk B12
  let C ← on12 C fun W => pure (mzedAddRaw W W (c22 C))
  mzedFreeT A.ff m k -- Wmk
  -- Wmk = mzed_mul_strassen(NULL, A12, B21, cutoff)
  let Wmk ← mzedInitT A12.ff A12.fid A12.nrows B21.ncols
  let Wmk ← mul Wmk A12 B21
  let C ← on11 C fun W => pure (mzedAddRaw W W Wmk)
  let C ← on12 C fun W => pure (mzedAddRaw W (c11 C) W)
  let C ← on11 C fun W => pure (mzedAddRaw W (c21 C) W)
  let Wkn := mzedAddRaw Wkn Wkn B11
  let C ← on21 C fun W => mul W A21 Wkn
  mzedFreeT A.ff k n -- Wkn
  let C ← on21 C fun W => pure (mzedAddRaw W (c11 C) W)
  let C ← on22 C fun W => pure (mzedAddRaw W W (c11 C))
  let C ← on11 C fun W => mul W A11 B11
  let C ← on11 C fun W => pure (mzedAddRaw W W Wmk)
  mzedFreeT A12.ff A12.nrows B21.ncols -- Wmk
  pure C

/-- strassen.c:220-287 the same for `_mzed_addmul_strassen`; `mul`, `addmul` are the recursive calls. -/
def strassenAddmulStepT (mul addmul : Mzed → Mzed → Mzed → Traced Mzed) (C A B : Mzed) (m k n : Nat) : Traced Mzed := do
  let A11 := mzedWindow A 0 0 m k
  let A12 := mzedWindow A 0 k m (2 * k)
  let A21 := mzedWindow A m 0 (2 * m) k
  let A22 := mzedWindow A m k (2 * m) (2 * k)
  let B11 := mzedWindow B 0 0 k n
  let B12 := mzedWindow B 0 n k (2 * n)
  let B21 := mzedWindow B k 0 (2 * k) n
  let B22 := mzedWindow B k n (2 * k) (2 * n)
  let on11 := fun C => onWindowT C 0 0 m n
  let on12 := fun C => onWindowT C 0 n m (2 * n)
  let on21 := fun C => onWindowT C m 0 (2 * m) n
  let on22 := fun C => onWindowT C m n (2 * m) (2 * n)
  let S ← mzedInitT A.ff A.fid m k
  let T ← mzedInitT A.ff A.fid k n
  let U ← mzedInitT A.ff A.fid m n
  let S := mzedAddRaw S A22 A21
  let T := mzedAddRaw T B22 B21
  let U ← mul U S T
  let C ← on22 C fun W => pure (mzedAddRaw W U W)
  let C ← on12 C fun W => pure (mzedAddRaw W U W)
  let U ← mul U A12 B21
  let C ← on11 C fun W => pure (mzedAddRaw W U W)
  let C ← on11 C fun W => addmul W A11 B11
  let S := mzedAddRaw S S A12
  let T := mzedAddRaw T T B12
  let U ← addmul U S T
  let C ← on12 C fun W => pure (mzedAddRaw W W U)
  let S := mzedAddRaw S A11 S
  let C ← on12 C fun W => addmul W S B12
  let T := mzedAddRaw T B11 T
  let C ← on21 C fun W => addmul W A21 T
  let S := mzedAddRaw S A22 A12
  let T := mzedAddRaw T B22 B12
  let U ← addmul U S T
  let C ← on21 C fun W => pure (mzedAddRaw W W U)
  let C ← on22 C fun W => pure (mzedAddRaw W W U)
  mzedFreeT A.ff m k -- S
  mzedFreeT A.ff k n -- T
  mzedFreeT A.ff m n -- U
  pure C

/-- strassen.c:146-182 / 289-323 the rows and columns left over by the rounding. -/
def strassenRestT (nj : Mzed → Mzed → Mzed → Option Mzed) (clear : Bool) (C A B : Mzed) (m k n m2 k2 n2 : Nat) : Traced Mzed :=
  let cl := fun W => if clear then mzedSetUi W 0#64 else W
  (if n > n2 then onWindowT C 0 n2 m n fun W => newtonJohnT nj (cl W) A (mzedWindow B 0 n2 k n) else pure C) >>= fun C =>
  (if m > m2 then onWindowT C m2 0 m n2 fun W => newtonJohnT nj (cl W) (mzedWindow A m2 0 m k) (mzedWindow B 0 0 k n2) else pure C) >>= fun C =>
  if k > k2 then onWindowT C 0 0 m2 n2 fun W => newtonJohnT nj W (mzedWindow A 0 k2 m2 k) (mzedWindow B k2 0 k n2) else pure C

/-- strassen.c:43-185 `_mzed_mul_strassen(C,A,B,cutoff)`. -/
def mulStrassenT (nj : Mzed → Mzed → Mzed → Option Mzed) (cutoff : Int) : Nat → Mzed → Mzed → Mzed → Traced Mzed
  | 0, _, _, _ => inPlace none
  | fuel + 1, C, A, B =>
    if C.nrows = 0 ∧ C.ncols = 0 then pure C
    else if strassenBase cutoff A.nrows A.ncols B.ncols then do
      let Cbar ← mzedInitT C.ff C.fid C.nrows C.ncols
      let Cbar ← newtonJohnT nj Cbar A B
      let R ← inPlace (mzedCopy? C Cbar)
      mzedFreeT C.ff C.nrows C.ncols
      pure R
    else do
      let m := halfDim A.w A.nrows
      let k := halfDim A.w A.ncols
      let n := halfDim A.w B.ncols
      let C ← strassenMulStepT (mulStrassenT nj cutoff fuel) C A B m k n
      strassenRestT nj true C A B A.nrows A.ncols B.ncols (2 * m) (2 * k) (2 * n)

/-- strassen.c:187-326 `_mzed_addmul_strassen(C,A,B,cutoff)`. -/
def addmulStrassenT (nj : Mzed → Mzed → Mzed → Option Mzed) (cutoff : Int) : Nat → Mzed → Mzed → Mzed → Traced Mzed
  | 0, _, _, _ => inPlace none
  | fuel + 1, C, A, B =>
    if C.nrows = 0 ∧ C.ncols = 0 then pure C
    else if strassenBase cutoff A.nrows A.ncols B.ncols then do
      let Cbar ← mzedInitT C.ff C.fid C.nrows C.ncols
      let Cbar ← inPlace (mzedCopy? Cbar C)
      let Cbar ← newtonJohnT nj Cbar A B
      let R ← inPlace (mzedCopy? C Cbar)
      mzedFreeT C.ff C.nrows C.ncols
      pure R
    else do
      let m := halfDim A.w A.nrows
      let k := halfDim A.w A.ncols
      let n := halfDim A.w B.ncols
      let C ← strassenAddmulStepT (mulStrassenT nj cutoff fuel) (addmulStrassenT nj cutoff fuel) C A B m k n
      strassenRestT nj false C A B A.nrows A.ncols B.ncols (2 * m) (2 * k) (2 * n)

/-- strassen.c:33-36 `mzed_mul_strassen(C,A,B,cutoff)`, `C != NULL`. -/
def mzedMulStrassenT (cb : Codebook) (bs : Nat) (C A B : Mzed) (cutoff : Int) : Traced Mzed := do
  let C ← inPlace (mzedMulInit? C A B true)
  mulStrassenT (mzedMulNewtonJohnAcc? cb bs) cutoff (strassenDepth A B) C A B

/-- strassen.c:38-41 `mzed_addmul_strassen(C,A,B,cutoff)`, `C != NULL`. -/
def mzedAddmulStrassenT (cb : Codebook) (bs : Nat) (C A B : Mzed) (cutoff : Int) : Traced Mzed := do
  let C ← inPlace (mzedMulInit? C A B false)
  addmulStrassenT (mzedMulNewtonJohnAcc? cb bs) cutoff (strassenDepth A B) C A B

/-! ### karatsuba.c, mzd_slice.{c,h}, conversion.h -/

/-- karatsuba.c:4-23 `_mzd_ptr_addmul_karatsuba2` and 25-1886 the others: all but the first create `t0`, `t1` and `t2` at the beginning and release them at the end;
the first creates two of the operands' sizes, releases them after the first product, and then creates one of the size of the result. -/
def ptrAddmulKaratsubaT (d : Nat) (ff : Option Gf2e) (m k n : Nat) (X A B : Nat → Nat → Nat → Word) : Traced (Nat → Nat → Nat → Word) :=
  if d = 2 then do
    getBlock (gf2Words m k)
    getBlock (gf2Words k n)
    let X1 := mzdAddmul m k n (X 1) (mzdAdd m k (fun _ _ => 0#64) (A 0) (A 1)) (mzdAdd k n (fun _ _ => 0#64) (B 0) (B 1))
    putBlock (gf2Words m k)
    putBlock (gf2Words k n)
    getBlock (gf2Words m n)
    let X ← inPlace (karaRun karaTerms2 ff m k n (setSlice X 1 X1) A B)
    putBlock (gf2Words m n)
    pure X
  else do
    getBlock (gf2Words m n)
    getBlock (gf2Words m k)
    getBlock (gf2Words k n)
    let X ← inPlace (ptrAddmulKaratsuba? d ff m k n X A B)
    putBlock (gf2Words m n)
    putBlock (gf2Words m k)
    putBlock (gf2Words k n)
    pure X

/-- mzd_slice.h:624-647 `_mzd_slice_addmul_karatsuba(C,A,B)`, `C` given, and mzd_slice.c:82-98 `_mzd_slice_addmul_naive(C,A,B)`, which creates one matrix. -/
def mzdSliceAddmulKaraT (C A B : Slice) : Traced Slice :=
  if 2 ≤ A.ff.degree ∧ A.ff.degree ≤ 16 then do
    let x ← ptrAddmulKaratsubaT A.ff.degree (some A.ff) A.nrows A.ncols B.ncols C.x A.x B.x
    pure { C with x := x }
  else do
    getBlock (gf2Words A.nrows B.ncols)
    let C ← inPlace (mzdSliceAddmulNaive? C A B)
    putBlock (gf2Words A.nrows B.ncols)
    pure C

/-- mzd_slice.h:661-670 `mzd_slice_mul_karatsuba(C,A,B)`, `C` given (also `mzd_slice_mul`). -/
def mzdSliceMulKaratsubaT (C A B : Slice) : Traced Slice :=
  if A.ncols ≠ B.nrows ∨ A.fid ≠ B.fid then inPlace none
  else if C.fid ≠ A.fid ∨ C.nrows ≠ A.nrows ∨ C.ncols ≠ B.ncols then inPlace none
  else mzdSliceAddmulKaraT (mzdSliceSetUi C 0#64) A B

/-- mzd_slice.h:684-691 `mzd_slice_addmul_karatsuba(C,A,B)` (also `mzd_slice_addmul`). -/
def mzdSliceAddmulKaratsubaT (C A B : Slice) : Traced Slice :=
  if A.ncols ≠ B.nrows ∨ A.fid ≠ B.fid then inPlace none
  else if C.fid ≠ A.fid ∨ C.nrows ≠ A.nrows ∨ C.ncols ≠ B.ncols then inPlace none
  else mzdSliceAddmulKaraT C A B

/-- conversion.c:56-86 `mzed_slice(NULL,Z)`: creates `degree` matrices over GF(2) (mzd_slice.h:78-88) -/
def mzedSliceNewT (Z : Mzed) : Traced Slice := do
  timesT Z.ff.degree (getBlock (gf2Words Z.nrows Z.ncols))
  inPlace (mzedSliceNew? Z)

/-- mzd_slice.h:145-153 `mzd_slice_free` -/
def mzdSliceFreeT (S : Slice) : Traced Unit := timesT S.depth (putBlock (gf2Words S.nrows S.ncols))

/-- conversion.h:148-165 `_mzed_addmul_karatsuba(C,A,B)`, `C` given. -/
def mzedAddmulKaraT (C A B : Mzed) : Traced Mzed := do
  let Cs ← mzedSliceNewT C
  let As ← mzedSliceNewT A
  let Bs ← mzedSliceNewT B
  let Cs ← mzdSliceAddmulKaraT Cs As Bs
  let C ← inPlace (mzedCling? C Cs)
  mzdSliceFreeT As
  mzdSliceFreeT Bs
  mzdSliceFreeT Cs
  pure C

/-! ### mzed.c -/

/-- mzed.c:90-94 `mzed_mul(C,A,B)`, `C` given, and mzed.c:102-108 `_mzed_mul(C,A,B)`. -/
def mzedMulT (env : MulEnv) (C A B : Mzed) : Traced Mzed := do
  let C ← inPlace (mzedMulInit? C A B true)
  if A.nrows ≥ 512 ∧ A.ncols ≥ 512 ∧ B.ncols ≥ 512 then mzedAddmulKaraT C A B
  else mulStrassenT (mzedMulNewtonJohnAcc? env.cb env.bs) (strassenCutoff env.sq env.l2 A.ff.degree A.w) (strassenDepth A B) C A B

/-- mzed.c:96-100 `mzed_addmul(C,A,B)` and mzed.c:110-116 `_mzed_addmul(C,A,B)`. -/
def mzedAddmulT (env : MulEnv) (C A B : Mzed) : Traced Mzed := do
  let C ← inPlace (mzedMulInit? C A B false)
  if A.nrows ≥ 512 ∧ A.ncols ≥ 512 ∧ B.ncols ≥ 512 then mzedAddmulKaraT C A B
  else addmulStrassenT (mzedMulNewtonJohnAcc? env.cb env.bs) (strassenCutoff env.sq env.l2 A.ff.degree A.w) (strassenDepth A B) C A B

/-- newton_john.c:498-501 `mzed_mul_newton_john(C,A,B)`, `C != NULL`. -/
def mzedMulNewtonJohnT (cb : Codebook) (bs : Nat) (C A B : Mzed) : Traced Mzed := do
  let C ← inPlace (mzedMulInit? C A B true)
  newtonJohnT (mzedMulNewtonJohnAcc? cb bs) C A B

/-- newton_john.c:503-506 `mzed_addmul_newton_john(C,A,B)`, `C != NULL`. -/
def mzedAddmulNewtonJohnT (cb : Codebook) (bs : Nat) (C A B : Mzed) : Traced Mzed := do
  let C ← inPlace (mzedMulInit? C A B false)
  newtonJohnT (mzedMulNewtonJohnAcc? cb bs) C A B

end M4rie
