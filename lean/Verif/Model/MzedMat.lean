import Verif.Model.M4ri

/-!
# Packed matrices: whole-matrix operations

`Option` results: `none` models `m4ri_die` or an out-of-bounds table read.
-/

namespace M4rie

/-- mzed.c:28-37 `mzed_init(ff,m,n)` (calloc'ed memory). -/
def mzedInit (ff : Gf2e) (fid m n : Nat) : Mzed := ⟨ff, fid, m, n, degreeToW ff.degree, fun _ _ => 0#64⟩

/-- mzed.c:53-66 `mzed_add(C,A,B)` with `C != NULL`; dimension mismatch dies. -/
def mzedAdd? (C A B : Mzed) : Option Mzed :=
  if A.nrows = B.nrows ∧ A.ncols = B.ncols ∧ A.fid = B.fid ∧ C.fid = A.fid ∧ C.nrows = A.nrows ∧ C.ncols = A.ncols then
    some { C with words := mzdAdd A.nrows A.bitCols C.words A.words B.words }
  else none

/-- mzed.c:196-206 `mzed_copy(A,B)` with `A != NULL`. -/
def mzedCopy? (A B : Mzed) : Option Mzed :=
  if A.fid = B.fid ∧ A.nrows = B.nrows ∧ A.ncols = B.ncols then
    some { A with words := mzdCopy B.nrows B.bitCols A.words B.words }
  else none

/-- mzed.c:245-252 `mzed_set_ui(A,value)`. -/
def mzedSetUi (A : Mzed) (value : Word) : Mzed :=
  let A := { A with words := mzdClear A.nrows A.bitCols A.words }
  if value = 0#64 then A else forN (fun i A => mzedWriteElem A i i value) (min A.ncols A.nrows) A

/-- mzed.c:44-51 `mzed_randomize(A)`; `rnd r c` is the value returned by `random()`. -/
def mzedRandomize (A : Mzed) (rnd : Nat → Nat → Word) : Mzed :=
  let bitmask := twoPow A.ff.degree - 1#64
  forN (fun r A => forN (fun c A => mzedWriteElem A r c (rnd r c &&& bitmask)) A.ncols A) A.nrows A

/-- mzed.c:128-138 `_mzed_mul_naive(C,A,B)`: `C += A*B`, element by element. -/
def mzedMulNaiveAcc (C A B : Mzed) : Mzed :=
  forN (fun i C => forN (fun j C => forN (fun k C =>
    mzedAddElem C i j (gf2eMul C.ff (mzedReadElem A i k) (mzedReadElem B k j))) A.ncols C) C.ncols C) C.nrows C

/-- mzed.c:74-88 `_mzed_mul_init(C,A,B,clear)` with `C != NULL`. -/
def mzedMulInit? (C A B : Mzed) (clear : Bool) : Option Mzed :=
  if A.ncols ≠ B.nrows ∨ A.fid ≠ B.fid then none
  else if C.fid ≠ A.fid ∨ C.nrows ≠ A.nrows ∨ C.ncols ≠ B.ncols then none
  else if clear then some (mzedSetUi C 0#64) else some C

/-- mzed.c:118-121 `mzed_mul_naive(C,A,B)`. -/
def mzedMulNaive? (C A B : Mzed) : Option Mzed :=
  (mzedMulInit? C A B true).map fun C => mzedMulNaiveAcc C A B

/-- mzed.c:123-126 `mzed_addmul_naive(C,A,B)`. -/
def mzedAddmulNaive? (C A B : Mzed) : Option Mzed :=
  (mzedMulInit? C A B false).map fun C => mzedMulNaiveAcc C A B

/-- mzed.c:175-179: four table lookups for one word. -/
def scalarWord (mul : Nat → Word) (tmp : Word) : Word :=
  let mask16 := twoPow 16 - 1#64
  let a0 := tmp &&& mask16
  let a1 := (tmp >>> 16) &&& mask16
  let a2 := (tmp >>> 32) &&& mask16
  let a3 := (tmp >>> 48) &&& mask16
  (mul a3.toNat <<< 48) ||| (mul a2.toNat <<< 32) ||| (mul a1.toNat <<< 16) ||| mul a0.toNat

/-- mzed.c:170-190: one row of the table method. -/
def scalarRow (mul : Nat → Word) (width : Nat) (hi : Word) (b c : Nat → Word) : Nat → Word :=
  let c := forN (fun j c => setWord c j (scalarWord mul (b j))) (width - 1) c
  let tmp := b (width - 1) &&& hi
  let c := setWord c (width - 1) (c (width - 1) &&& ~~~hi)
  setWord c (width - 1) (c (width - 1) ||| scalarWord mul tmp)

/-- mzed.c:141-193 `mzed_mul_scalar(C,a,B)` with `C != NULL` of the right size (`C` may be `B`).
`none`: `gf2e_t16_init` reads outside the multiplication table. -/
def mzedMulScalar? (C : Mzed) (a : Word) (B : Mzed) : Option Mzed :=
  if B.ff.degree > 8 ∨ B.nrows * B.ncols < 2 ^ 17 then
    (mzedCopy? C B).map fun C => forN (fun i C => mzedRescaleRow C i 0 a) B.nrows C
  else if (List.range (2 ^ 16)).all (fun i => (t16? B.ff a i).isSome) then
    let mul := fun i => (t16? B.ff a i).getD 0#64
    some (forN (fun i C =>
      let row := scalarRow mul C.width B.highBitmask (B.words i) (C.words i)
      { C with words := setRow C.words i row }) C.nrows C)
  else none

/-- mzed.h:909-911 `mzed_row_swap`. -/
def mzedRowSwap (M : Mzed) (a b : Nat) : Mzed := { M with words := mzdRowSwap M.bitCols M.words a b }

/-- mzed.h:926-928 `mzed_copy_row(B,i,A,j)`. -/
def mzedCopyRow (B : Mzed) (i : Nat) (A : Mzed) (j : Nat) : Mzed :=
  { B with words := mzdCopyRow A.bitCols B.words i A.words j }

/-- mzed.h:940-943 `mzed_col_swap`: `w` bit columns are swapped. -/
def mzedColSwap (M : Mzed) (a b : Nat) : Mzed :=
  forN (fun i M => { M with words := mzdColSwap M.nrows M.words (M.w * a + i) (M.w * b + i) }) M.w M

/-- mzed.h:957-961 `mzed_col_swap_in_rows`: only `degree` bit columns are swapped. -/
def mzedColSwapInRows (A : Mzed) (a b start stop : Nat) : Mzed :=
  forN (fun e A => { A with words := mzdColSwapInRows A.words (A.w * a + e) (A.w * b + e) start stop }) A.ff.degree A

/-- mzed.h:976-978 `mzed_row_add(M,src,dst)`. -/
def mzedRowAdd (M : Mzed) (src dst : Nat) : Mzed := { M with words := mzdRowAdd M.bitCols M.words src dst }

/-- mzed.h:472-474 `mzed_cmp(A,B) == 0`. -/
def mzedEq (A B : Mzed) : Bool :=
  A.nrows == B.nrows && A.bitCols == B.bitCols && mzdEq A.nrows A.bitCols A.words B.words

/-- mzed.h:484-486 `mzed_is_zero`. -/
def mzedIsZero (A : Mzed) : Bool := mzdIsZero A.nrows A.bitCols A.words

/-- mzed.h:990-992 `mzed_first_zero_row`. -/
def mzedFirstZeroRow (A : Mzed) : Nat := mzdFirstZeroRow A.bitCols A.words A.nrows

/-- mzed.h:111-116 `mzed_concat(NULL,A,B)`. -/
def mzedConcat (A B : Mzed) : Mzed :=
  let C := mzedInit A.ff A.fid A.nrows (A.ncols + B.ncols)
  { C with words := mzdConcat A.nrows A.bitCols B.bitCols C.words A.words B.words }

/-- mzed.h:135-140 `mzed_stack(NULL,A,B)`. -/
def mzedStack (A B : Mzed) : Mzed :=
  let C := mzedInit A.ff A.fid (A.nrows + B.nrows) A.ncols
  { C with words := mzdStack A.nrows B.nrows A.bitCols C.words A.words B.words }

/-- mzed.h:157-163 `mzed_submatrix(NULL,M,lowr,lowc,highr,highc)`. -/
def mzedSubmatrix (M : Mzed) (lowr lowc highr highc : Nat) : Mzed :=
  let S := mzedInit M.ff M.fid (highr - lowr) (highc - lowc)
  { S with words := mzdSubmatrix S.words M.words lowr (lowc * M.w) highr (highc * M.w) }

/-- mzed.h:187-195 `mzed_init_window(A,lowr,lowc,highr,highc)`; M4RI requires `w*lowc % 64 = 0`. -/
def mzedWindow (A : Mzed) (lowr lowc highr highc : Nat) : Mzed :=
  let w := degreeToW A.ff.degree
  ⟨A.ff, A.fid, highr - lowr, highc - lowc, w, mzdWindow A.words lowr (w * lowc)⟩

/-- effect on the parent when a window's words become `v`: the shared memory `rows[lowr+i][lowc/64+b]`
is overwritten. -/
def mzdWindowWrite (M : Nat → Nat → Word) (lowr lowc : Nat) (v : Nat → Nat → Word) : Nat → Nat → Word :=
  fun i b => if lowr ≤ i ∧ lowc / 64 ≤ b then v (i - lowr) (b - lowc / 64) else M i b

end M4rie
