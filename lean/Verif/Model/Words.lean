import Verif.Spec.Threads
import Verif.Model.Trsm
import Verif.Model.Echelon

/-!
# The element and row layer as sequences of single word accesses

The functions of `Verif.Model.Mzed` once more, now with every read and write of a word as a step of its own (`Spec.Code`), in the order of the C code.
`ff->mul` only reads the tables of the field object, which nobody writes after `gf2e_init`, and counts as arithmetic; so do the fields of the headers.
The two M4RI functions involved are parameters (`WordLib`): any sequence of accesses with the documented effect.
-/

namespace M4rie
open M4rie.Spec

/-- mzed.h:49-73 `mzed_t` and the fields of `mzd_t` without the memory: `x->rows[r] + j` is word `block0 + j` of row `row0 + r` of the allocation `buf`. -/
structure Handle where
  ff : Gf2e
  fid : Nat
  nrows : Nat
  ncols : Nat
  w : Nat
  buf : Nat
  row0 : Nat
  block0 : Nat

namespace Handle
/-- `&x->rows[r][j]` (mzed.h:49-73) -/
def loc (A : Handle) (r j : Nat) : Loc := ⟨A.buf, A.row0 + r, A.block0 + j⟩
/-- M4RI `x->width` (mzed.h:49-73). -/
def width (A : Handle) : Nat := (A.w * A.ncols + 63) / 64
/-- M4RI `x->high_bitmask` (mzed.h:49-73). -/
def highBitmask (A : Handle) : Word := leftBitmask (A.w * A.ncols % 64)
/-- the matrix behind the header when the memory is `m` (mzed.h:49-73) -/
def view (A : Handle) (m : Mem) : Mzed := ⟨A.ff, A.fid, A.nrows, A.ncols, A.w, fun r j => m (A.loc r j)⟩
/-- mzed.h:187-195 `mzed_init_window(A,lowr,lowc,highr,highc)`: the same memory. -/
def window (A : Handle) (lowr lowc highr highc : Nat) : Handle :=
  let w := degreeToW A.ff.degree
  ⟨A.ff, A.fid, highr - lowr, highc - lowc, w, A.buf, A.row0 + lowr, A.block0 + w * lowc / 64⟩
end Handle

/-- `for(i=0; i<n; i++) f(i)` -/
def forC (f : Nat → Code Unit) : Nat → Code Unit
  | 0 => .done ()
  | n + 1 => (forC f n).andThen fun _ => f n

/-- m4ri_functions.h:40-46 `__mzd_read_bits`, mzed.h:424-426 `mzed_read_elem`. -/
def readElemC (A : Handle) (r c : Nat) : Code Word :=
  .read (A.loc r (A.w * c / 64)) fun v => .done ((v <<< (64 - (A.w * c % 64 + A.w))) >>> (64 - A.w))

/-- `rows[r][j] = f(rows[r][j])` -/
def updC (A : Handle) (r j : Nat) (f : Word → Word) : Code Unit := .read (A.loc r j) fun v => .write (A.loc r j) (f v) (.done ())

/-- m4ri_functions.h:52-56 `__mzd_xor_bits`, mzed.h:439-441 `mzed_add_elem`. -/
def addElemC (A : Handle) (r c : Nat) (x : Word) : Code Unit := updC A r (A.w * c / 64) fun v => v ^^^ (x <<< (A.w * c % 64))

/-- m4ri_functions.h:62-67 `__mzd_clear_bits`. -/
def clearElemC (A : Handle) (r c : Nat) : Code Unit := updC A r (A.w * c / 64) fun v => v &&& ~~~((ffff >>> (64 - A.w)) <<< (A.w * c % 64))

/-- mzed.h:454-457 `mzed_write_elem`. -/
def writeElemC (A : Handle) (r c : Nat) (x : Word) : Code Unit := (clearElemC A r c).andThen fun _ => addElemC A r c x

/-- `_a[j] ^= f(_b[j])` -/
def xorC (A : Handle) (ar : Nat) (B : Handle) (br j : Nat) (f : Word → Word) : Code Unit :=
  .read (B.loc br j) fun b => .read (A.loc ar j) fun a => .write (A.loc ar j) (a ^^^ f b) (.done ())

/-- mzed.h:528-531: the loop over the middle words, `n` words from `j`. -/
def addMidC (A : Handle) (ar : Nat) (B : Handle) (br : Nat) : Nat → Nat → Code Unit
  | _, 0 => .done ()
  | j, n + 1 => (xorC A ar B br j fun b => b).andThen fun _ => addMidC A ar B br (j + 1) n

/-- mzed.h:515-536 `mzed_add_row(A,ar,B,br,start_col)`. -/
def addRowC (A : Handle) (ar : Nat) (B : Handle) (br startCol : Nat) : Code Unit :=
  let start := A.w * startCol
  let startblock := start / 64
  let bitmaskBegin := rightBitmask (64 - start % 64)
  if A.width - startblock > 1 then
    (xorC A ar B br startblock fun b => b &&& bitmaskBegin).andThen fun _ =>
    (addMidC A ar B br (startblock + 1) (A.width - 1 - (startblock + 1))).andThen fun _ =>
    xorC A ar B br (A.width - 1) fun b => b &&& A.highBitmask
  else xorC A ar B br startblock fun b => b &&& (bitmaskBegin &&& A.highBitmask)

/-- the unrolled body word by word (mzed.h:844-874; mzed.c:578-603).  `word ops j` computes the new word `j`, `wr j v` writes it. -/
def seqBodyC (word : List LaneOp → Nat → Code Word) (wr : Nat → Word → Code Unit) : Nat → List (List LaneOp) → Code Unit
  | _, [] => .done ()
  | j, o :: rest => (word o j).andThen fun t => (wr j t).andThen fun _ => seqBodyC word wr (j + 1) rest

/-- the unrolled body: the two words of `w = 8` are both read before they are written (mzed.h:779-800; mzed.c:509-530), the four words of `w = 16` are
done one by one. -/
def unrolledBodyC (word : List LaneOp → Nat → Code Word) (wr : Nat → Word → Code Unit) (j : Nat) (code : List (List LaneOp)) : Code Unit :=
  match code with
  | [o, o'] => (word o j).andThen fun t => (word o' (j + 1)).andThen fun t' => (wr j t).andThen fun _ => wr (j + 1) t'
  | code => seqBodyC word wr j code

/-- the loop over the unrolled body (mzed.h:779-800, 844-874; mzed.c:509-530, 578-603), as `unrolledLoop` -/
def unrolledLoopC (body : Nat → Code Unit) (n width : Nat) : Nat → Nat → Code Nat
  | 0, j => .done j
  | fuel + 1, j => if n ≠ 0 ∧ j + n < width then (body j).andThen fun _ => unrolledLoopC body n width fuel (j + n) else .done j

/-- the loop over the remaining words, as `singleLoop` (mzed.h:802-813, 875-882; mzed.c:532-543, 604-611) -/
def singleLoopC (body : Nat → Code Unit) (width : Nat) : Nat → Nat → Code Nat
  | 0, j => .done j
  | fuel + 1, j => if j < width - 1 then (body j).andThen fun _ => singleLoopC body width fuel (j + 1) else .done j

/-- both loops -/
def midLoopsC (word : List LaneOp → Nat → Code Word) (wr : Nat → Word → Code Unit) (code : LaneCode) (width j : Nat) : Code Nat :=
  (unrolledLoopC (fun j => unrolledBodyC word wr j code.unrolled) code.unrolled.length width width j).andThen fun j =>
    singleLoopC (fun j => (word code.single j).andThen fun t => wr j t) width width j

/-- `rows[r][j] = v` -/
def wrC (A : Handle) (r j : Nat) (v : Word) : Code Unit := .write (A.loc r j) v (.done ())

/-- mzed.h:642-679 and the like: the last word of `mzed_rescale_row`; `_a[j]` is read anew in every case of the switch. -/
def rescaleLastC (mul : Word → Word) (A : Handle) (r j : Nat) : List LaneOp → Word → Code Unit
  | [], t => wrC A r j t
  | op :: ops, t => .read (A.loc r j) fun a => rescaleLastC mul A r j ops (t ^^^ (mul ((a &&& op.mask) >>> op.shr) <<< op.shl))

/-- mzed.h:549-893 `mzed_rescale_row` for `w ∈ {2,4,8,16}` (for `w = 8` the C code reads the first word twice). -/
def rescaleWordsC (mul : Word → Word) (code : LaneCode) (A : Handle) (r startCol : Nat) : Code Unit :=
  let start := A.w * startCol
  let startblock := start / 64
  let bitmaskBegin := rightBitmask (64 - start % 64)
  .read (A.loc r startblock) fun a0 =>
    let t := laneRun mul (fromCase (start / A.w % (64 / A.w)) code.first) (a0 >>> (start % 64)) 0#64
    if A.width - startblock = 1 then
      (updC A r startblock fun v => v &&& ~~~(bitmaskBegin &&& A.highBitmask)).andThen fun _ =>
        updC A r startblock fun v => v ^^^ (t &&& bitmaskBegin &&& A.highBitmask)
    else
      (updC A r startblock fun v => v &&& ~~~bitmaskBegin).andThen fun _ =>
      (updC A r startblock fun v => v ^^^ (t &&& bitmaskBegin)).andThen fun _ =>
      (midLoopsC (fun ops j => .read (A.loc r j) fun a => .done (laneRun mul ops a 0#64)) (wrC A r) code A.width (startblock + 1)).andThen fun j =>
      .read (A.loc r j) fun a => rescaleLastC mul A r j (fromCase (A.w * A.ncols % 64) code.last) (a &&& ~~~A.highBitmask)

/-- mzed.h:894-898: element by element. -/
def rescaleElemsC (mul : Word → Word) (A : Handle) (r : Nat) : Nat → Nat → Code Unit
  | 0, _ => .done ()
  | n + 1, j => (readElemC A r j).andThen fun x => (writeElemC A r j (mul x)).andThen fun _ => rescaleElemsC mul A r n (j + 1)

/-- mzed.h:549-897 `mzed_rescale_row(A,r,start_col,x)`. -/
def rescaleRowC (A : Handle) (r startCol : Nat) (x : Word) : Code Unit :=
  match rescaleCode A.w with
  | some code => rescaleWordsC (gf2eMul A.ff x) code A r startCol
  | none => rescaleElemsC (gf2eMul A.ff x) A r (A.ncols - startCol) startCol

/-- mzed.c:388-416 and the like: the last word of `mzed_add_multiple_of_row`; every case of the switch reads `_f[j]` and updates `_t[j]`. -/
def addmulLastC (mul : Word → Word) (A : Handle) (ar : Nat) (B : Handle) (br j : Nat) : List LaneOp → Code Unit
  | [] => .done ()
  | op :: ops => (xorC A ar B br j fun f => mul ((f &&& op.mask) >>> op.shr) <<< op.shl).andThen fun _ => addmulLastC mul A ar B br j ops

/-- mzed.c:272-625 `mzed_add_multiple_of_row` for `w ∈ {2,4,8,16}` and `x ∉ {0,1}`. -/
def addmulWordsC (mul : Word → Word) (code : LaneCode) (A : Handle) (ar : Nat) (B : Handle) (br startCol : Nat) : Code Unit :=
  let start := A.w * startCol
  let startblock := start / 64
  .read (B.loc br startblock) fun f0 => .read (A.loc ar startblock) fun t0 =>
    let tt := laneRun mul (fromCase (start / A.w % (64 / A.w)) code.first) (f0 >>> (start % 64)) t0
    if A.width - startblock = 1 then
      (updC A ar startblock fun v => v &&& ~~~A.highBitmask).andThen fun _ => updC A ar startblock fun v => v ^^^ (tt &&& A.highBitmask)
    else
      (wrC A ar startblock tt).andThen fun _ =>
      (midLoopsC (fun ops j => .read (B.loc br j) fun f => .read (A.loc ar j) fun t => .done (laneRun mul ops f t)) (wrC A ar) code A.width
        (startblock + 1)).andThen fun j =>
      addmulLastC mul A ar B br j (fromCase (A.w * A.ncols % 64) code.last)

/-- mzed.c:626-630: element by element. -/
def addmulElemsC (mul : Word → Word) (A : Handle) (ar : Nat) (B : Handle) (br : Nat) : Nat → Nat → Code Unit
  | 0, _ => .done ()
  | n + 1, j => (readElemC B br j).andThen fun x => (addElemC A ar j (mul x)).andThen fun _ => addmulElemsC mul A ar B br n (j + 1)

/-- mzed.c:272-630 `mzed_add_multiple_of_row(A,ar,B,br,x,start_col)`. -/
def addMultipleOfRowC (A : Handle) (ar : Nat) (B : Handle) (br : Nat) (x : Word) (startCol : Nat) : Code Unit :=
  if x = 0#64 then .done ()
  else if x = 1#64 then addRowC A ar B br startCol
  else
    match addmulCode A.w with
    | some code => addmulWordsC (gf2eMul A.ff x) code A ar B br startCol
    | none => addmulElemsC (gf2eMul A.ff x) A ar B br (B.ncols - startCol) startCol

/-- the M4RI functions called below, as sequences of word accesses: `mzd_set_ui(A,0)` and `mzd_row_swap(A,a,b)` -/
structure WordLib where
  clear : Handle → Code Unit
  rowSwap : Handle → Nat → Nat → Code Unit

/-- mzed.c:245-252 `mzed_set_ui(A,value)`. -/
def setUiC (lib : WordLib) (A : Handle) (value : Word) : Code Unit :=
  (lib.clear A).andThen fun _ => if value = 0#64 then .done () else forC (fun i => writeElemC A i i value) (min A.ncols A.nrows)

/-- mzed.c:128-138 `_mzed_mul_naive(C,A,B)`. -/
def mulNaiveAccC (C A B : Handle) : Code Unit :=
  forC (fun i => forC (fun j => forC (fun k =>
    (readElemC A i k).andThen fun a => (readElemC B k j).andThen fun b => addElemC C i j (gf2eMul C.ff a b)) A.ncols) C.ncols) C.nrows

/-- mzed.c:118-121 `mzed_mul_naive(C,A,B)` with dimensions that match. -/
def mulNaiveC (lib : WordLib) (C A B : Handle) : Code Unit := (setUiC lib C 0#64).andThen fun _ => mulNaiveAccC C A B

/-- trsm.c:5-17 `mzed_trsm_upper_left_naive(U,B)`. -/
def trsmUpperNaiveC (U B : Handle) : Code Unit :=
  forC (fun t =>
    let i := B.nrows - 1 - t
    (forC (fun d => (readElemC U i (i + 1 + d)).andThen fun x => addMultipleOfRowC B i B (i + 1 + d) x 0) (B.nrows - (i + 1))).andThen fun _ =>
    (readElemC U i i).andThen fun x => rescaleRowC B i 0 (gf2eInv U.ff x)) B.nrows

/-- trsm.c:19-31 `mzed_trsm_lower_left_naive(L,B)`. -/
def trsmLowerNaiveC (L B : Handle) : Code Unit :=
  forC (fun i =>
    (forC (fun k => (readElemC L i k).andThen fun x => addMultipleOfRowC B i B k x 0) i).andThen fun _ =>
    (readElemC L i i).andThen fun x => rescaleRowC B i 0 (gf2eInv L.ff x)) B.nrows

/-- mzed.c:221-223 the search for a pivot: row and value. -/
def findPivotC (A : Handle) (c : Nat) : Nat → Nat → Code (Option (Nat × Word))
  | 0, _ => .done none
  | n + 1, r => (readElemC A r c).andThen fun x => if x ≠ 0#64 then .done (some (r, x)) else findPivotC A c n (r + 1)

/-- mzed.c:230-237 clear column `c`. -/
def elimRowsC (A : Handle) (startRow c elimStart : Nat) : Code Unit :=
  forC (fun k =>
    let i := elimStart + k
    if i = startRow then .done ()
    else (readElemC A i c).andThen fun x => if x = 0#64 then .done () else addMultipleOfRowC A i A startRow x c) (A.nrows - elimStart)

/-- mzed.c:220-241 one column: the next starting row. -/
def echelonizeColC (lib : WordLib) (A : Handle) (full : Bool) (c startRow : Nat) : Code Nat :=
  (findPivotC A c (A.nrows - startRow) startRow).andThen fun p => match p with
    | none => .done startRow
    | some (r, x) =>
      (rescaleRowC A r c (gf2eInv A.ff x)).andThen fun _ =>
      (lib.rowSwap A r startRow).andThen fun _ =>
      (elimRowsC A startRow c (if full then 0 else startRow + 1)).andThen fun _ => .done (startRow + 1)

/-- mzed.c:208-243 `mzed_echelonize_naive(A,full)`: the first `n` columns. -/
def echelonizeNaiveC (lib : WordLib) (A : Handle) (full : Bool) : Nat → Code Nat
  | 0 => .done 0
  | n + 1 => (echelonizeNaiveC lib A full n).andThen fun s => echelonizeColC lib A full n s

/-! ### calls -/

/-- a call of the library -/
inductive WCall where
  | readElem (A : Handle) (r c : Nat)
  | writeElem (A : Handle) (r c : Nat) (x : Word)
  | addElem (A : Handle) (r c : Nat) (x : Word)
  | addRow (A : Handle) (ar : Nat) (B : Handle) (br startCol : Nat)
  | rescaleRow (A : Handle) (r startCol : Nat) (x : Word)
  | addMultipleOfRow (A : Handle) (ar : Nat) (B : Handle) (br : Nat) (x : Word) (startCol : Nat)
  | rowSwap (A : Handle) (a b : Nat)
  | setUi (A : Handle) (x : Word)
  | mulNaive (C A B : Handle)
  | addmulNaive (C A B : Handle)
  | trsmUpperNaive (U B : Handle)
  | trsmLowerNaive (L B : Handle)
  | echelonizeNaive (A : Handle) (full : Bool)

/-- what a call returns -/
inductive WRes where
  | unit
  | elem (x : Word)
  | rank (r : Nat)

/-- the accesses of a call (mzed.h:424-457, mzed.h:515-911, mzed.c:118-138, 208-252, 272-630, trsm.c:5-31) -/
def WCall.code (lib : WordLib) : WCall → Code WRes
  | .readElem A r c => (readElemC A r c).andThen fun x => .done (.elem x)
  | .writeElem A r c x => (writeElemC A r c x).andThen fun _ => .done .unit
  | .addElem A r c x => (addElemC A r c x).andThen fun _ => .done .unit
  | .addRow A ar B br s => (addRowC A ar B br s).andThen fun _ => .done .unit
  | .rescaleRow A r s x => (rescaleRowC A r s x).andThen fun _ => .done .unit
  | .addMultipleOfRow A ar B br x s => (addMultipleOfRowC A ar B br x s).andThen fun _ => .done .unit
  | .rowSwap A a b => (lib.rowSwap A a b).andThen fun _ => .done .unit
  | .setUi A x => (setUiC lib A x).andThen fun _ => .done .unit
  | .mulNaive C A B => (mulNaiveC lib C A B).andThen fun _ => .done .unit
  | .addmulNaive C A B => (mulNaiveAccC C A B).andThen fun _ => .done .unit
  | .trsmUpperNaive U B => (trsmUpperNaiveC U B).andThen fun _ => .done .unit
  | .trsmLowerNaive L B => (trsmLowerNaiveC L B).andThen fun _ => .done .unit
  | .echelonizeNaive A full => (echelonizeNaiveC lib A full A.ncols).andThen fun r => .done (.rank r)

/-- a thread: its calls one after the other -/
def threadC (lib : WordLib) : List WCall → Code (List WRes)
  | [] => .done []
  | c :: cs => (c.code lib).andThen fun r => (threadC lib cs).andThen fun rs => .done (r :: rs)

/-- a thread that decides what to call next by the results so far (the caller's code between the calls, which has no access to matrices other than by
calls) -/
inductive WProg (α : Type) where
  | ret (a : α)
  | call (c : WCall) (k : WRes → WProg α)

/-- the accesses of such a thread -/
def WProg.code {α : Type} (lib : WordLib) : WProg α → Code α
  | .ret a => .done a
  | .call c k => (c.code lib).andThen fun r => (k r).code lib

end M4rie
