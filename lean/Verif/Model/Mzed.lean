import Verif.Model.Gf2e
import Verif.Model.LaneTables

/-!
# Packed matrices (`mzed_t`): element access and row operations

The word memory of a matrix is a function `row → word index → Word` (`A->x->rows[r][j]`).
A window shares the memory of its parent; the functions below therefore act on *all* words and the
theorems say which words/bits stay unchanged.
-/

namespace M4rie

/-- mzed.h:49-73 `mzed_t`, together with the M4RI fields `x->rows` (as `words`).
`x->ncols = w*ncols`. The pointer `finite_field` is represented by the field object `ff` it points
to and its address `fid` (only used by the pointer comparisons `A->finite_field != B->finite_field`). -/
structure Mzed where
  ff : Gf2e
  fid : Nat
  nrows : Nat
  ncols : Nat
  w : Nat
  words : Nat → Nat → Word

namespace Mzed

/-- M4RI `x->ncols`. -/
def bitCols (A : Mzed) : Nat := A.w * A.ncols
/-- M4RI `x->width`: number of words per row. -/
def width (A : Mzed) : Nat := (A.bitCols + 63) / 64
end Mzed

/-- M4RI `m4ri_ffff`. -/
def ffff : Word := BitVec.allOnes 64
/-- M4RI `__M4RI_LEFT_BITMASK(n) = m4ri_ffff >> (64 - n) % 64`. -/
def leftBitmask (n : Nat) : Word := ffff >>> ((64 - n) % 64)
/-- M4RI `__M4RI_RIGHT_BITMASK(n) = m4ri_ffff << (64 - n)`. -/
def rightBitmask (n : Nat) : Word := ffff <<< (64 - n)

/-- M4RI `x->high_bitmask = __M4RI_LEFT_BITMASK(ncols % 64)`. -/
def Mzed.highBitmask (A : Mzed) : Word := leftBitmask (A.bitCols % 64)

/-- `rows[r] := row` -/
def setRow (words : Nat → Nat → Word) (r : Nat) (row : Nat → Word) : Nat → Nat → Word :=
  fun i j => if i = r then row j else words i j

/-- `row[j] := v` -/
def setWord (row : Nat → Word) (j : Nat) (v : Word) : Nat → Word :=
  fun k => if k = j then v else row k

/-- m4ri_functions.h:40-46 `__mzd_read_bits(M,x,y,n)`; `<< -spill` is a shift by `64 - spot - n`. -/
def mzdReadBits (words : Nat → Nat → Word) (x y n : Nat) : Word :=
  let spot := y % 64
  let block := y / 64
  let temp := words x block <<< (64 - (spot + n))
  temp >>> (64 - n)

/-- m4ri_functions.h:52-56 `__mzd_xor_bits`. -/
def mzdXorBits (words : Nat → Nat → Word) (x y : Nat) (values : Word) : Nat → Nat → Word :=
  setRow words x (setWord (words x) (y / 64) (words x (y / 64) ^^^ (values <<< (y % 64))))

/-- m4ri_functions.h:62-67 `__mzd_clear_bits`. -/
def mzdClearBits (words : Nat → Nat → Word) (x y n : Nat) : Nat → Nat → Word :=
  let values := ffff >>> (64 - n)
  setRow words x (setWord (words x) (y / 64) (words x (y / 64) &&& ~~~(values <<< (y % 64))))

/-- mzed.h:424-426 `mzed_read_elem`. -/
def mzedReadElem (A : Mzed) (row col : Nat) : Word := mzdReadBits A.words row (A.w * col) A.w

/-- mzed.h:439-441 `mzed_add_elem`. -/
def mzedAddElem (A : Mzed) (row col : Nat) (elem : Word) : Mzed :=
  { A with words := mzdXorBits A.words row (A.w * col) elem }

/-- mzed.h:454-457 `mzed_write_elem`. -/
def mzedWriteElem (A : Mzed) (row col : Nat) (elem : Word) : Mzed :=
  { A with words := mzdXorBits (mzdClearBits A.words row (A.w * col) A.w) row (A.w * col) elem }

/-- mzed.h:528-531: the loop `for(j; j<width-1; j++) _a[j] ^= _b[j];` starting at `j`, `n` words. -/
def addRowMid (b : Nat → Word) (j : Nat) : Nat → (Nat → Word) → (Nat → Word)
  | 0, a => a
  | n + 1, a => addRowMid b (j + 1) n (setWord a j (a j ^^^ b j))

/-- mzed.h:515-536 `mzed_add_row`, on the two rows. -/
def addRowWords (w ncols startCol : Nat) (a b : Nat → Word) : Nat → Word :=
  let start := w * startCol
  let startblock := start / 64
  let width := (w * ncols + 63) / 64
  let bitmaskBegin := rightBitmask (64 - start % 64)
  let bitmaskEnd := leftBitmask (w * ncols % 64)
  if width - startblock > 1 then
    let a := setWord a startblock (a startblock ^^^ (b startblock &&& bitmaskBegin))
    let a := addRowMid b (startblock + 1) (width - 1 - (startblock + 1)) a
    setWord a (width - 1) (a (width - 1) ^^^ (b (width - 1) &&& bitmaskEnd))
  else
    setWord a startblock (a startblock ^^^ (b startblock &&& (bitmaskBegin &&& bitmaskEnd)))

/-- mzed.h:515-536 `mzed_add_row(A, ar, B, br, start_col)`. The source row is read from `B` (which
may be the same matrix as `A`). -/
def mzedAddRow (A : Mzed) (ar : Nat) (B : Mzed) (br startCol : Nat) : Mzed :=
  { A with words := setRow A.words ar (addRowWords A.w A.ncols startCol (A.words ar) (B.words br)) }

/-- The unrolled code of one element width: the first-word switch, the unrolled word loop (one
operation list per word of the unrolled body; empty if there is no such loop), the single-word
loop and the last-word switch. -/
structure LaneCode where
  first : List LaneOp
  unrolled : List (List LaneOp)
  single : List LaneOp
  last : List LaneOp

/-- mzed.h:562-893 by element width. -/
def rescaleCode : Nat → Option LaneCode
  | 2 => some ⟨rescaleFirstW2, [], rescaleMid0_W2, rescaleLastW2⟩
  | 4 => some ⟨rescaleFirstW4, [], rescaleMid0_W4, rescaleLastW4⟩
  | 8 => some ⟨rescaleFirstW8, [rescaleMid0_0_W8, rescaleMid0_1_W8], rescaleMid2_0_W8, rescaleLastW8⟩
  | 16 => some ⟨rescaleFirstW16, [rescaleMid0_W16, rescaleMid1_W16, rescaleMid2_W16, rescaleMid3_W16],
      rescaleMid4_W16, rescaleLastW16⟩
  | _ => none

/-- mzed.c:298-627 by element width. -/
def addmulCode : Nat → Option LaneCode
  | 2 => some ⟨addmulFirstW2, [], addmulMid0_W2, addmulLastW2⟩
  | 4 => some ⟨addmulFirstW4, [], addmulMid0_W4, addmulLastW4⟩
  | 8 => some ⟨addmulFirstW8, [addmulMid0_0_W8, addmulMid0_1_W8], addmulMid2_0_W8, addmulLastW8⟩
  | 16 => some ⟨addmulFirstW16, [addmulMid0_W16, addmulMid1_W16, addmulMid2_W16, addmulMid3_W16],
      addmulMid4_W16, addmulLastW16⟩
  | _ => none

/-- Statements `t ^= mul(x, a & mask) << shl; a >>= shr;` in sequence. -/
def laneRun (mul : Word → Word) : List LaneOp → Word → Word → Word
  | [], _, t => t
  | op :: ops, a, t => laneRun mul ops (a >>> op.shr) (t ^^^ (mul (a &&& op.mask) <<< op.shl))

/-- Statements `t ^= mul(x, (a & mask) >> shr) << shl;` in sequence. -/
def lastRun (mul : Word → Word) : List LaneOp → Word → Word → Word
  | [], _, t => t
  | op :: ops, a, t => lastRun mul ops a (t ^^^ (mul ((a &&& op.mask) >>> op.shr) <<< op.shl))

/-- `switch(label)` with fallthrough: everything from the matching case on. -/
def fromCase (label : Nat) (ops : List LaneOp) : List LaneOp := ops.dropWhile (fun op => op.label != label)

/-- One pass through the unrolled body: word `j+q` is replaced by `body q_th_list (j+q) old`. -/
def unrolledBody (body : List LaneOp → Nat → Word → Word) (j : Nat) : List (List LaneOp) → (Nat → Word) → (Nat → Word)
  | [], row => row
  | ops :: rest, row => unrolledBody body (j + 1) rest (setWord row j (body ops j (row j)))

/-- `for(; j+n<width; j+=n)` where `n` is the number of unrolled words (no loop if it is 0).
The first argument bounds the number of iterations (callers pass `width`). -/
def unrolledLoop (body : List LaneOp → Nat → Word → Word) (code : List (List LaneOp)) (width : Nat) :
    Nat → Nat → (Nat → Word) → Nat × (Nat → Word)
  | 0, j, row => (j, row)
  | fuel + 1, j, row =>
    if code.length ≠ 0 ∧ j + code.length < width then
      unrolledLoop body code width fuel (j + code.length) (unrolledBody body j code row)
    else (j, row)

/-- `for(; j<width-1; j++)`; first argument as above. -/
def singleLoop (body : List LaneOp → Nat → Word → Word) (code : List LaneOp) (width : Nat) :
    Nat → Nat → (Nat → Word) → Nat × (Nat → Word)
  | 0, j, row => (j, row)
  | fuel + 1, j, row =>
    if j < width - 1 then
      singleLoop body code width fuel (j + 1) (setWord row j (body code j (row j)))
    else (j, row)

/-- both loops over the middle words, starting at word `j`. -/
def midLoops (body : List LaneOp → Nat → Word → Word) (code : LaneCode) (width j : Nat) (row : Nat → Word) :
    Nat × (Nat → Word) :=
  let r := unrolledLoop body code.unrolled width width j row
  singleLoop body code.single width width r.1 r.2

/-- mzed.h:549-893 `mzed_rescale_row` for `w ∈ {2,4,8,16}`, on one row; `mul = ff->mul(ff, x, ·)`. -/
def rescaleWords (mul : Word → Word) (code : LaneCode) (w ncols startCol : Nat) (a : Nat → Word) : Nat → Word :=
  let start := w * startCol
  let startblock := start / 64
  let width := (w * ncols + 63) / 64
  let bitmaskBegin := rightBitmask (64 - start % 64)
  let bitmaskEnd := leftBitmask (w * ncols % 64)
  let t := laneRun mul (fromCase (start / w % (64 / w)) code.first) (a startblock >>> (start % 64)) 0#64
  if width - startblock = 1 then
    let a := setWord a startblock (a startblock &&& ~~~(bitmaskBegin &&& bitmaskEnd))
    setWord a startblock (a startblock ^^^ (t &&& bitmaskBegin &&& bitmaskEnd))
  else
    let a := setWord a startblock (a startblock &&& ~~~bitmaskBegin)
    let a := setWord a startblock (a startblock ^^^ (t &&& bitmaskBegin))
    let r := midLoops (fun ops _ v => laneRun mul ops v 0#64) code width (startblock + 1) a
    let j := r.1
    let a := r.2
    let t := a j &&& ~~~bitmaskEnd
    setWord a j (lastRun mul (fromCase (w * ncols % 64) code.last) (a j) t)

/-- mzed.h:894-898: the generic branch for other widths, element by element, `n` elements from `j`. -/
def rescaleElems (mul : Word → Word) (r : Nat) : Nat → Nat → Mzed → Mzed
  | 0, _, A => A
  | n + 1, j, A => rescaleElems mul r n (j + 1) (mzedWriteElem A r j (mul (mzedReadElem A r j)))

/-- mzed.h:549-897 `mzed_rescale_row(A,r,start_col,x)`. -/
def mzedRescaleRow (A : Mzed) (r startCol : Nat) (x : Word) : Mzed :=
  match rescaleCode A.w with
  | some code =>
    { A with words := setRow A.words r (rescaleWords (gf2eMul A.ff x) code A.w A.ncols startCol (A.words r)) }
  | none => rescaleElems (gf2eMul A.ff x) r (A.ncols - startCol) startCol A

/-- mzed.c:272-625 `mzed_add_multiple_of_row` for `w ∈ {2,4,8,16}` and `x ∉ {0,1}`: target row `t`,
source row `f` (read before it is written if the two rows coincide). -/
def addmulWords (mul : Word → Word) (code : LaneCode) (w ncols startCol : Nat) (t f : Nat → Word) : Nat → Word :=
  let start := w * startCol
  let startblock := start / 64
  let width := (w * ncols + 63) / 64
  let bitmaskEnd := leftBitmask (w * ncols % 64)
  let tt := laneRun mul (fromCase (start / w % (64 / w)) code.first) (f startblock >>> (start % 64)) (t startblock)
  if width - startblock = 1 then
    let t := setWord t startblock (t startblock &&& ~~~bitmaskEnd)
    setWord t startblock (t startblock ^^^ (tt &&& bitmaskEnd))
  else
    let t := setWord t startblock tt
    let r := midLoops (fun ops j v => laneRun mul ops (f j) v) code width (startblock + 1) t
    let j := r.1
    let t := r.2
    setWord t j (lastRun mul (fromCase (w * ncols % 64) code.last) (f j) (t j))

/-- mzed.c:626-630: the generic branch, `n` elements from `j`. -/
def addmulElems (mul : Word → Word) (ar : Nat) (B : Mzed) (br : Nat) : Nat → Nat → Mzed → Mzed
  | 0, _, A => A
  | n + 1, j, A => addmulElems mul ar B br n (j + 1) (mzedAddElem A ar j (mul (mzedReadElem B br j)))

/-- mzed.c:272-630 `mzed_add_multiple_of_row(A,ar,B,br,x,start_col)`. -/
def mzedAddMultipleOfRow (A : Mzed) (ar : Nat) (B : Mzed) (br : Nat) (x : Word) (startCol : Nat) : Mzed :=
  if x = 0#64 then A
  else if x = 1#64 then mzedAddRow A ar B br startCol
  else
    match addmulCode A.w with
    | some code =>
      let row := addmulWords (gf2eMul A.ff x) code A.w A.ncols startCol (A.words ar) (B.words br)
      { A with words := setRow A.words ar row }
    | none => addmulElems (gf2eMul A.ff x) ar B br (B.ncols - startCol) startCol A

end M4rie
