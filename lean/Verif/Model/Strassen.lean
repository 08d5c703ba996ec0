import Verif.Model.NewtonJohn

/-!
# Strassen-Winograd multiplication (strassen.c)

`Option`: `none` models a crash (Newton-John tables for an operand without columns, whose rows M4RI
does not allocate).  `A`, `B` and `C` are assumed not to share memory; the windows of `C` do.
-/

namespace M4rie

/-- newton_john.c:412-495 `_mzed_mul_newton_john(C,A,B)` including the case `B->ncols == 0`: when tables are
built (`degree <= A->nrows`, `A->ncols > 0`), `mzed_make_table` dereferences the rows of a matrix
without columns. -/
def mzedMulNewtonJohnAcc? (cb : Codebook) (bs : Nat) (C A B : Mzed) : Option Mzed :=
  if A.ff.degree ≤ A.nrows ∧ 0 < A.ncols ∧ B.ncols = 0 then none else some (mzedMulNewtonJohnAcc cb bs C A B)

/-- mzed.c:68-71 `_mzed_add(C,A,B)` (no checks; M4RI allows `C` to be `A` or `B`). -/
def mzedAddRaw (C A B : Mzed) : Mzed := { C with words := mzdAdd A.nrows A.bitCols C.words A.words B.words }

/-- run `f` on the window of `C` (mzed.h:187-195) and keep its effect on the shared memory -/
def onWindow (C : Mzed) (lr lc hr hc : Nat) (f : Mzed → Option Mzed) : Option Mzed :=
  (f (mzedWindow C lr lc hr hc)).map fun W => { C with words := mzdWindowWrite C.words lr (C.w * lc) W.words }

/-- strassen.c:31 `CLOSER(a,b,target)`; in unbounded integers, exact for cutoffs `0 ≤ target` (for hugely negative cutoffs the argument of C's
`abs`, an `int`, could be truncated; which branch is taken changes only the speed of the C function). -/
def closer (a b : Nat) (target : Int) : Bool := ((a : Int) - target).natAbs < ((b : Int) - target).natAbs

/-- strassen.c:52 / 196 the test for the base case. -/
def strassenBase (cutoff : Int) (m k n : Nat) : Bool :=
  closer m (m / 2) cutoff || closer k (k / 2) cutoff || closer n (n / 2) cutoff

/-- strassen.c:65-71 / 209-215 half of a dimension, rounded down to a word boundary. -/
def halfDim (w m : Nat) : Nat := m / 2 - m / 2 % (64 / w)

/-- strassen.c:76-132 the products and sums of one level of `_mzed_mul_strassen`; `mul` is the recursive call. -/
def strassenMulStep (mul : Mzed → Mzed → Mzed → Option Mzed) (C A B : Mzed) (m k n : Nat) : Option Mzed := do
  let A11 := mzedWindow A 0 0 m k
  let A12 := mzedWindow A 0 k m (2 * k)
  let A21 := mzedWindow A m 0 (2 * m) k
  let A22 := mzedWindow A m k (2 * m) (2 * k)
  let B11 := mzedWindow B 0 0 k n
  let B12 := mzedWindow B 0 n k (2 * n)
  let B21 := mzedWindow B k 0 (2 * k) n
  let B22 := mzedWindow B k n (2 * k) (2 * n)
  let c11 := fun C => mzedWindow C 0 0 m n
  let c21 := fun C => mzedWindow C m 0 (2 * m) n
  let c22 := fun C => mzedWindow C m n (2 * m) (2 * n)
  let on11 := fun C => onWindow C 0 0 m n
  let on12 := fun C => onWindow C 0 n m (2 * n)
  let on21 := fun C => onWindow C m 0 (2 * m) n
  let on22 := fun C => onWindow C m n (2 * m) (2 * n)
  let Wmk := mzedInit A.ff A.fid m k
  let Wkn := mzedInit A.ff A.fid k n
  let Wkn := mzedAddRaw Wkn B22 B12
  let Wmk := mzedAddRaw Wmk A22 A12
  let C ← on21 C fun W => mul W Wmk Wkn
  let Wmk := mzedAddRaw Wmk A22 A21
  let Wkn := mzedAddRaw Wkn B22 B21
  let C ← on22 C fun W => mul W Wmk Wkn
  let Wkn := mzedAddRaw Wkn Wkn B12
  let Wmk := mzedAddRaw Wmk Wmk A12
  let C ← on11 C fun W => mul W Wmk Wkn
  let Wmk := mzedAddRaw Wmk Wmk A11
  let C ← on12 C fun W => mul W Wmk B12
  let C ← on12 C fun W => some (mzedAddRaw W W (c22 C))
  -- Wmk = mzed_mul_strassen(NULL, A12, B21, cutoff)
  let Wmk ← mul (mzedInit A12.ff A12.fid A12.nrows B21.ncols) A12 B21
  let C ← on11 C fun W => some (mzedAddRaw W W Wmk)
  let C ← on12 C fun W => some (mzedAddRaw W (c11 C) W)
  let C ← on11 C fun W => some (mzedAddRaw W (c21 C) W)
  let Wkn := mzedAddRaw Wkn Wkn B11
  let C ← on21 C fun W => mul W A21 Wkn
  let C ← on21 C fun W => some (mzedAddRaw W (c11 C) W)
  let C ← on22 C fun W => some (mzedAddRaw W W (c11 C))
  let C ← on11 C fun W => mul W A11 B11
  on11 C fun W => some (mzedAddRaw W W Wmk)

/-- strassen.c:220-272 the same for `_mzed_addmul_strassen`; `mul`, `addmul` are the recursive calls. -/
def strassenAddmulStep (mul addmul : Mzed → Mzed → Mzed → Option Mzed) (C A B : Mzed) (m k n : Nat) : Option Mzed := do
  let A11 := mzedWindow A 0 0 m k
  let A12 := mzedWindow A 0 k m (2 * k)
  let A21 := mzedWindow A m 0 (2 * m) k
  let A22 := mzedWindow A m k (2 * m) (2 * k)
  let B11 := mzedWindow B 0 0 k n
  let B12 := mzedWindow B 0 n k (2 * n)
  let B21 := mzedWindow B k 0 (2 * k) n
  let B22 := mzedWindow B k n (2 * k) (2 * n)
  let on11 := fun C => onWindow C 0 0 m n
  let on12 := fun C => onWindow C 0 n m (2 * n)
  let on21 := fun C => onWindow C m 0 (2 * m) n
  let on22 := fun C => onWindow C m n (2 * m) (2 * n)
  let S := mzedInit A.ff A.fid m k
  let T := mzedInit A.ff A.fid k n
  let U := mzedInit A.ff A.fid m n
  let S := mzedAddRaw S A22 A21
  let T := mzedAddRaw T B22 B21
  let U ← mul U S T
  let C ← on22 C fun W => some (mzedAddRaw W U W)
  let C ← on12 C fun W => some (mzedAddRaw W U W)
  let U ← mul U A12 B21
  let C ← on11 C fun W => some (mzedAddRaw W U W)
  let C ← on11 C fun W => addmul W A11 B11
  let S := mzedAddRaw S S A12
  let T := mzedAddRaw T T B12
  let U ← addmul U S T
  let C ← on12 C fun W => some (mzedAddRaw W W U)
  let S := mzedAddRaw S A11 S
  let C ← on12 C fun W => addmul W S B12
  let T := mzedAddRaw T B11 T
  let C ← on21 C fun W => addmul W A21 T
  let S := mzedAddRaw S A22 A12
  let T := mzedAddRaw T B22 B12
  let U ← addmul U S T
  let C ← on21 C fun W => some (mzedAddRaw W W U)
  on22 C fun W => some (mzedAddRaw W W U)

/-- strassen.c:146-182 / 289-323 the rows and columns left over by the rounding; `clear` for the
`mzed_set_ui(…,0)` calls only the multiplication makes. -/
def strassenRest (nj : Mzed → Mzed → Mzed → Option Mzed) (clear : Bool) (C A B : Mzed) (m k n m2 k2 n2 : Nat) : Option Mzed :=
  let cl := fun W => if clear then mzedSetUi W 0#64 else W
  (if n > n2 then onWindow C 0 n2 m n fun W => nj (cl W) A (mzedWindow B 0 n2 k n) else some C).bind fun C =>
  (if m > m2 then onWindow C m2 0 m n2 fun W => nj (cl W) (mzedWindow A m2 0 m k) (mzedWindow B 0 0 k n2) else some C).bind fun C =>
  if k > k2 then onWindow C 0 0 m2 n2 fun W => nj W (mzedWindow A 0 k2 m2 k) (mzedWindow B k2 0 k n2) else some C

/-- strassen.c:43-185 `_mzed_mul_strassen(C,A,B,cutoff)`; `nj` is `_mzed_mul_newton_john`.  The first
argument bounds the recursion depth (`none` when exhausted). -/
def mulStrassenF (nj : Mzed → Mzed → Mzed → Option Mzed) (cutoff : Int) : Nat → Mzed → Mzed → Mzed → Option Mzed
  | 0, _, _, _ => none
  | fuel + 1, C, A, B =>
    if C.nrows = 0 ∧ C.ncols = 0 then some C
    else if strassenBase cutoff A.nrows A.ncols B.ncols then
      (nj (mzedInit C.ff C.fid C.nrows C.ncols) A B).bind fun Cbar => mzedCopy? C Cbar
    else
      let m := halfDim A.w A.nrows
      let k := halfDim A.w A.ncols
      let n := halfDim A.w B.ncols
      (strassenMulStep (mulStrassenF nj cutoff fuel) C A B m k n).bind fun C =>
        strassenRest nj true C A B A.nrows A.ncols B.ncols (2 * m) (2 * k) (2 * n)

/-- strassen.c:187-326 `_mzed_addmul_strassen(C,A,B,cutoff)`. -/
def addmulStrassenF (nj : Mzed → Mzed → Mzed → Option Mzed) (cutoff : Int) : Nat → Mzed → Mzed → Mzed → Option Mzed
  | 0, _, _, _ => none
  | fuel + 1, C, A, B =>
    if C.nrows = 0 ∧ C.ncols = 0 then some C
    else if strassenBase cutoff A.nrows A.ncols B.ncols then
      (mzedCopy? (mzedInit C.ff C.fid C.nrows C.ncols) C).bind fun Cbar => (nj Cbar A B).bind fun Cbar => mzedCopy? C Cbar
    else
      let m := halfDim A.w A.nrows
      let k := halfDim A.w A.ncols
      let n := halfDim A.w B.ncols
      (strassenAddmulStep (mulStrassenF nj cutoff fuel) (addmulStrassenF nj cutoff fuel) C A B m k n).bind fun C =>
        strassenRest nj false C A B A.nrows A.ncols B.ncols (2 * m) (2 * k) (2 * n)

/-- enough recursion depth for any operands: every level with a non-empty result makes `m + n` smaller -/
def strassenDepth (A B : Mzed) : Nat := A.nrows + B.ncols + 1

/-- strassen.c:33-36 `mzed_mul_strassen(C,A,B,cutoff)`, `C != NULL`. -/
def mzedMulStrassen? (cb : Codebook) (bs : Nat) (C A B : Mzed) (cutoff : Int) : Option Mzed :=
  (mzedMulInit? C A B true).bind fun C => mulStrassenF (mzedMulNewtonJohnAcc? cb bs) cutoff (strassenDepth A B) C A B

/-- strassen.c:38-41 `mzed_addmul_strassen(C,A,B,cutoff)`, `C != NULL`. -/
def mzedAddmulStrassen? (cb : Codebook) (bs : Nat) (C A B : Mzed) (cutoff : Int) : Option Mzed :=
  (mzedMulInit? C A B false).bind fun C => addmulStrassenF (mzedMulNewtonJohnAcc? cb bs) cutoff (strassenDepth A B) C A B

/-- strassen.c:328-367 `_mzed_strassen_cutoff(C,A,B)`; `sq x` is `(int)sqrt((double)x)` and `l2` is
`__M4RI_CPU_L2_CACHE`. -/
def strassenCutoff (sq : Nat → Nat) (l2 : Nat) (degree w : Nat) : Nat :=
  let cutoff := match degree with
    | 2 => min (sq (4 * l2) / 2) 4096
    | 3 | 4 | 5 | 6 | 7 | 8 => min (sq (4 * l2 / w)) 4096
    | 9 => 2048
    | 10 | 11 | 12 | 13 | 14 | 15 | 16 => 4096
    | _ => 1024
  if cutoff < 2 * 2 ^ degree then 2 * 2 ^ degree else cutoff

end M4rie
