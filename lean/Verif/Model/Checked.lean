import Verif.Model.NjEchelon
import Verif.Model.Trsm
import Verif.Model.Ple

/-!
# The packed routines with every access checked

The models of the other files are total: memory is a function defined at all indices, `gf2e_mul` is a total function,
shifts take any count.  Here the same C lines are modelled again in a *checked* semantics, where each step may be
undefined behaviour (`none`):

* reading or writing `rows[i][b]` needs `i < nrows` and `b < width` (for a window: of the window),
* a shift needs a count below 64,
* an `int` computation needs a result below `2^31`,
* `ff->mul` reads its tables within their bounds (`fmul`),
* reading `T->L[x]` needs `x < 2^degree`, `codebook->ord/inc` an index below `2^degree`,
* an `assert` must hold if the library is compiled with assertions (`dbg = true`),
* M4RI functions get rows and columns of the matrix.

`Verif/Props/Checked.lean` proves that under the documented preconditions the checked program is defined and does
what the total model does.  Simplification: only the products `w*col` that the code computes are checked for `int` overflow,
not loop counters or sums of row numbers.
-/

namespace M4rie.Chk

/-- an `int` expression with mathematical value `n` -/
def int? (n : Nat) : Option Nat := if n < 2 ^ 31 then some n else none
/-- `x << n` -/
def shl (x : Word) (n : Nat) : Option Word := if n < 64 then some (x <<< n) else none
/-- `x >> n` -/
def shr (x : Word) (n : Nat) : Option Word := if n < 64 then some (x >>> n) else none
/-- `assert(c)`; compiled in iff `dbg` -/
def assert? (dbg : Bool) (c : Prop) [Decidable c] : Option Unit := if dbg = true ∧ ¬ c then none else some ()
/-- a precondition of a called function or of an access -/
def need (c : Prop) [Decidable c] : Option Unit := if c then some () else none

/-- `row[b]` of a row with `W` words -/
def ldr (W : Nat) (row : Nat → Word) (b : Nat) : Option Word := if b < W then some (row b) else none
/-- `row[b] = v` -/
def str (W : Nat) (row : Nat → Word) (b : Nat) (v : Word) : Option (Nat → Word) := if b < W then some (setWord row b v) else none
/-- `A->x->rows[i]` -/
def rowOf (A : Mzed) (i : Nat) : Option (Nat → Word) := if i < A.nrows then some (A.words i) else none
/-- `A->x->rows[i][b]` -/
def ld (A : Mzed) (i b : Nat) : Option Word := (rowOf A i).bind fun r => ldr A.width r b
/-- `A->x->rows[i][b] = v` -/
def st (A : Mzed) (i b : Nat) (v : Word) : Option Mzed :=
  (rowOf A i).bind fun r => (str A.width r b v).bind fun r => some { A with words := setRow A.words i r }

/-- `for(i=0; i<n; i++) s = f i s` -/
def forC {σ : Type} (f : Nat → σ → Option σ) : Nat → σ → Option σ
  | 0, s => some s
  | n + 1, s => (forC f n s).bind (f n)

/-! ### gf2x.h -/

/-- gf2x.h:138-142 the loop of `gf2x_divmod`; `n + 1` iterations left means `deg_a = degb + n`. -/
def divLoop (b : Word) (degb : Nat) : Nat → Word × Word → Option (Word × Word)
  | 0, s => some s
  | n + 1, (a, res) =>
    (shr a (degb + n)).bind fun q =>
    (shl 1#64 n).bind fun p =>
    (shl b n).bind fun bn =>
      divLoop b degb n (a ^^^ (oneToF q &&& bn), res ||| (oneToF q &&& p))

/-- gf2x.h:134-145 `gf2x_divmod(a,b,&rem)`. -/
def divmod (a b : Word) : Option (Word × Word) :=
  (divLoop b (gf2xDeg b) (gf2xDeg a + 1 - gf2xDeg b) (a, 0#64)).map fun s => (s.2, s.1)

/-- gf2x.h:47-78 the fallthrough switch of `gf2x_mul` entered at `case d`. -/
def mulFrom (a b : Word) : Nat → Word → Option Word
  | 0, res => some res
  | d + 1, res =>
    (shl 1#64 d).bind fun p =>
    (shr (a &&& p) d).bind fun q =>
    (shl b d).bind fun bd => mulFrom a b d (res ^^^ (oneToF q &&& bd))

/-- gf2x.h:43-84 `gf2x_mul(a,b,d)`. -/
def mul (a b : Word) (d : Nat) : Option Word := if 1 ≤ d ∧ d ≤ 32 then mulFrom a b d 0#64 else none

/-- gf2x.h:162-167 the loop of `gf2x_invmod` (`none` also if it is not finished after `fuel` iterations). -/
def invLoop (d : Nat) : Nat → (a b x lastx y lasty : Word) → Option Word
  | fuel, a, b, x, lastx, y, lasty =>
    if b = 0#64 then some lastx
    else match fuel with
      | 0 => none
      | fuel + 1 =>
        (divmod a b).bind fun qr =>
        (mul qr.1 x d).bind fun px =>
        (mul qr.1 y d).bind fun py =>
        invLoop d fuel b qr.2 (lastx ^^^ px) x (lasty ^^^ py) y

/-- gf2e.h:94-96 `gf2e_inv(ff,a)`, gf2x.h:152-169 `gf2x_invmod`. -/
def inv (ff : Gf2e) (a : Word) : Option Word := invLoop ff.degree 66 a ff.minpoly 0#64 1#64 1#64 0#64

/-- gf2e.h:119-124 `gf2e_mul(ff,a,b)` (`ff->mul`), gf2e.h:102-113: the table of `2^degree` rows and columns, or `gf2x_mul` and the table
`red` of `2^degree` entries. -/
def fmul (ff : Gf2e) (a b : Word) : Option Word :=
  match ff.mulTab with
  | some t => if a.toNat < 2 ^ ff.degree ∧ b.toNat < 2 ^ ff.degree then some (t a.toNat b.toNat) else none
  | none =>
    (mul a b ff.degree).bind fun res =>
    (shr res ff.degree).bind fun q =>
    (need (q.toNat < 2 ^ ff.degree)).bind fun _ => some (res ^^^ ff.red q.toNat)

/-! ### elements -/

/-- m4ri_functions.h:40-46 `__mzd_read_bits(M,x,y,n)`: the shift counts are `-spill = 64-spot-n` and `64-n`. -/
def readBits (A : Mzed) (x y n : Nat) : Option Word :=
  (need (y % 64 + n ≤ 64)).bind fun _ =>
  (ld A x (y / 64)).bind fun v =>
  (shl v (64 - (y % 64 + n))).bind fun t => shr t (64 - n)

/-- m4ri_functions.h:52-56 `__mzd_xor_bits`. -/
def xorBits (A : Mzed) (x y : Nat) (values : Word) : Option Mzed :=
  (ld A x (y / 64)).bind fun v =>
  (shl values (y % 64)).bind fun s => st A x (y / 64) (v ^^^ s)

/-- m4ri_functions.h:62-67 `__mzd_clear_bits`. -/
def clearBits (A : Mzed) (x y n : Nat) : Option Mzed :=
  (shr ffff (64 - n)).bind fun values =>
  (ld A x (y / 64)).bind fun v =>
  (shl values (y % 64)).bind fun s => st A x (y / 64) (v &&& ~~~s)

/-- mzed.h:424-426 `mzed_read_elem`. -/
def readElem (A : Mzed) (row col : Nat) : Option Word := (int? (A.w * col)).bind fun y => readBits A row y A.w

/-- mzed.h:439-441 `mzed_add_elem`. -/
def addElem (A : Mzed) (row col : Nat) (elem : Word) : Option Mzed := (int? (A.w * col)).bind fun y => xorBits A row y elem

/-- mzed.h:454-457 `mzed_write_elem`. -/
def writeElem (A : Mzed) (row col : Nat) (elem : Word) : Option Mzed :=
  (int? (A.w * col)).bind fun y => (clearBits A row y A.w).bind fun A => xorBits A row y elem

/-! ### rows -/

/-- M4RI `__M4RI_RIGHT_BITMASK(n) = m4ri_ffff << (64 - n)`. -/
def rightMask (n : Nat) : Option Word := shl ffff (64 - n)

/-- mzed.h:528-531: the loop over the inner words, starting at `j`, `n` words. -/
def addRowMid (Wa Wb : Nat) (b : Nat → Word) (j : Nat) : Nat → (Nat → Word) → Option (Nat → Word)
  | 0, a => some a
  | n + 1, a =>
    (ldr Wb b j).bind fun v => (ldr Wa a j).bind fun u => (str Wa a j (u ^^^ v)).bind fun a => addRowMid Wa Wb b (j + 1) n a

/-- `a[j] ^= v` -/
def xorAt (W : Nat) (a : Nat → Word) (j : Nat) (v : Word) : Option (Nat → Word) :=
  (ldr W a j).bind fun u => str W a j (u ^^^ v)

/-- mzed.h:515-536 `mzed_add_row(A, ar, B, br, start_col)`. -/
def addRow (dbg : Bool) (A : Mzed) (ar : Nat) (B : Mzed) (br startCol : Nat) : Option Mzed :=
  (assert? dbg (A.ncols = B.ncols ∧ A.fid = B.fid)).bind fun _ =>
  (assert? dbg (startCol < A.ncols)).bind fun _ =>
  (int? (A.w * startCol)).bind fun start =>
  (rightMask (64 - start % 64)).bind fun bitmaskBegin =>
  (rowOf A ar).bind fun a =>
  (rowOf B br).bind fun b =>
  let startblock := start / 64
  (if A.width - startblock > 1 then
    (ldr B.width b startblock).bind fun v =>
    (xorAt A.width a startblock (v &&& bitmaskBegin)).bind fun a =>
    (addRowMid A.width B.width b (startblock + 1) (A.width - 1 - (startblock + 1)) a).bind fun a =>
    (ldr B.width b (A.width - 1)).bind fun v => xorAt A.width a (A.width - 1) (v &&& A.highBitmask)
  else
    (ldr B.width b startblock).bind fun v => xorAt A.width a startblock (v &&& (bitmaskBegin &&& A.highBitmask))).bind fun a =>
  some { A with words := setRow A.words ar a }

/-- Statements `t ^= mul(x, a & mask) << shl; a >>= shr;` in sequence. -/
def laneRun (mul : Word → Option Word) : List LaneOp → Word → Word → Option Word
  | [], _, t => some t
  | op :: ops, a, t =>
    (mul (a &&& op.mask)).bind fun m => (shl m op.shl).bind fun s => (shr a op.shr).bind fun a => laneRun mul ops a (t ^^^ s)

/-- Statements `t ^= mul(x, (a & mask) >> shr) << shl;` in sequence. -/
def lastRun (mul : Word → Option Word) : List LaneOp → Word → Word → Option Word
  | [], _, t => some t
  | op :: ops, a, t =>
    (shr (a &&& op.mask) op.shr).bind fun q => (mul q).bind fun m => (shl m op.shl).bind fun s => lastRun mul ops a (t ^^^ s)

/-- One pass through the unrolled body. -/
def unrolledBody (W : Nat) (body : List LaneOp → Nat → Word → Option Word) (j : Nat) :
    List (List LaneOp) → (Nat → Word) → Option (Nat → Word)
  | [], row => some row
  | ops :: rest, row =>
    (ldr W row j).bind fun v => (body ops j v).bind fun v => (str W row j v).bind fun row => unrolledBody W body (j + 1) rest row

/-- `for(; j+n<width; j+=n)`, at most `fuel` iterations. -/
def unrolledLoop (W : Nat) (body : List LaneOp → Nat → Word → Option Word) (code : List (List LaneOp)) (width : Nat) :
    Nat → Nat → (Nat → Word) → Option (Nat × (Nat → Word))
  | 0, j, row => some (j, row)
  | fuel + 1, j, row =>
    if code.length ≠ 0 ∧ j + code.length < width then
      (unrolledBody W body j code row).bind fun row => unrolledLoop W body code width fuel (j + code.length) row
    else some (j, row)

/-- `for(; j<width-1; j++)`, at most `fuel` iterations. -/
def singleLoop (W : Nat) (body : List LaneOp → Nat → Word → Option Word) (code : List LaneOp) (width : Nat) :
    Nat → Nat → (Nat → Word) → Option (Nat × (Nat → Word))
  | 0, j, row => some (j, row)
  | fuel + 1, j, row =>
    if j < width - 1 then
      (ldr W row j).bind fun v => (body code j v).bind fun v => (str W row j v).bind fun row => singleLoop W body code width fuel (j + 1) row
    else some (j, row)

/-- both loops over the middle words, starting at word `j`. -/
def midLoops (W : Nat) (body : List LaneOp → Nat → Word → Option Word) (code : LaneCode) (width j : Nat) (row : Nat → Word) :
    Option (Nat × (Nat → Word)) :=
  (unrolledLoop W body code.unrolled width width j row).bind fun r => singleLoop W body code.single width width r.1 r.2

/-- mzed.h:549-893 `mzed_rescale_row` for `w ∈ {2,4,8,16}`, on one row. -/
def rescaleWords (W : Nat) (mul : Word → Option Word) (code : LaneCode) (w ncols start : Nat) (hi : Word) (a : Nat → Word) :
    Option (Nat → Word) :=
  let startblock := start / 64
  (rightMask (64 - start % 64)).bind fun bitmaskBegin =>
  (ldr W a startblock).bind fun v =>
  (shr v (start % 64)).bind fun v =>
  (laneRun mul (fromCase (start / w % (64 / w)) code.first) v 0#64).bind fun t =>
  if W - startblock = 1 then
    (ldr W a startblock).bind fun v =>
    (str W a startblock (v &&& ~~~(bitmaskBegin &&& hi))).bind fun a =>
    xorAt W a startblock (t &&& bitmaskBegin &&& hi)
  else
    (ldr W a startblock).bind fun v =>
    (str W a startblock (v &&& ~~~bitmaskBegin)).bind fun a =>
    (xorAt W a startblock (t &&& bitmaskBegin)).bind fun a =>
    (midLoops W (fun ops _ v => laneRun mul ops v 0#64) code W (startblock + 1) a).bind fun r =>
    (ldr W r.2 r.1).bind fun v =>
    (lastRun mul (fromCase (w * ncols % 64) code.last) v (v &&& ~~~hi)).bind fun t =>
    str W r.2 r.1 t

/-- mzed.h:894-898: the generic branch, `n` elements from `j`. -/
def rescaleElems (mul : Word → Option Word) (r : Nat) : Nat → Nat → Mzed → Option Mzed
  | 0, _, A => some A
  | n + 1, j, A => (readElem A r j).bind fun v => (mul v).bind fun m => (writeElem A r j m).bind fun A => rescaleElems mul r n (j + 1) A

/-- mzed.h:549-897 `mzed_rescale_row(A,r,start_col,x)`. -/
def rescaleRow (dbg : Bool) (A : Mzed) (r startCol : Nat) (x : Word) : Option Mzed :=
  (assert? dbg (startCol < A.ncols)).bind fun _ =>
  (int? (A.w * startCol)).bind fun start =>
  match rescaleCode A.w with
  | some code =>
    (rowOf A r).bind fun a =>
    (rescaleWords A.width (fmul A.ff x) code A.w A.ncols start A.highBitmask a).bind fun a =>
    some { A with words := setRow A.words r a }
  | none => rescaleElems (fmul A.ff x) r (A.ncols - startCol) startCol A

/-- mzed.c:272-625 `mzed_add_multiple_of_row` for `w ∈ {2,4,8,16}` and `x ∉ {0,1}`: target row `t` of `W` words,
source row `f` of `Wf` words. -/
def addmulWords (W Wf : Nat) (mul : Word → Option Word) (code : LaneCode) (w ncols start : Nat) (hi : Word) (t f : Nat → Word) :
    Option (Nat → Word) :=
  let startblock := start / 64
  (ldr Wf f startblock).bind fun v =>
  (shr v (start % 64)).bind fun v =>
  (ldr W t startblock).bind fun t0 =>
  (laneRun mul (fromCase (start / w % (64 / w)) code.first) v t0).bind fun tt =>
  if W - startblock = 1 then
    (ldr W t startblock).bind fun v =>
    (str W t startblock (v &&& ~~~hi)).bind fun t =>
    xorAt W t startblock (tt &&& hi)
  else
    (str W t startblock tt).bind fun t =>
    (midLoops W (fun ops j v => (ldr Wf f j).bind fun fj => laneRun mul ops fj v) code W (startblock + 1) t).bind fun r =>
    (ldr Wf f r.1).bind fun fj =>
    (ldr W r.2 r.1).bind fun tj =>
    (lastRun mul (fromCase (w * ncols % 64) code.last) fj tj).bind fun v =>
    str W r.2 r.1 v

/-- mzed.c:626-630: the generic branch, `n` elements from `j`. -/
def addmulElems (mul : Word → Option Word) (ar : Nat) (B : Mzed) (br : Nat) : Nat → Nat → Mzed → Option Mzed
  | 0, _, A => some A
  | n + 1, j, A => (readElem B br j).bind fun v => (mul v).bind fun m => (addElem A ar j m).bind fun A => addmulElems mul ar B br n (j + 1) A

/-- mzed.c:272-630 `mzed_add_multiple_of_row(A,ar,B,br,x,start_col)`. -/
def addMultipleOfRow (dbg : Bool) (A : Mzed) (ar : Nat) (B : Mzed) (br : Nat) (x : Word) (startCol : Nat) : Option Mzed :=
  (assert? dbg (A.ncols = B.ncols ∧ A.fid = B.fid)).bind fun _ =>
  (assert? dbg (startCol < A.ncols)).bind fun _ =>
  if x = 0#64 then some A
  else if x = 1#64 then addRow dbg A ar B br startCol
  else
    (int? (A.w * startCol)).bind fun start =>
    match addmulCode A.w with
    | some code =>
      (rowOf B br).bind fun f =>
      (rowOf A ar).bind fun t =>
      (addmulWords A.width B.width (fmul A.ff x) code A.w A.ncols start A.highBitmask t f).bind fun t =>
      some { A with words := setRow A.words ar t }
    | none => addmulElems (fmul A.ff x) ar B br (B.ncols - startCol) startCol A

/-- mzed.h:909-911 `mzed_row_swap` (M4RI needs rows of the matrix). -/
def rowSwap (A : Mzed) (a b : Nat) : Option Mzed := (need (a < A.nrows ∧ b < A.nrows)).bind fun _ => some (mzedRowSwap A a b)

/-- mzed.h:957-961 `mzed_col_swap_in_rows` (M4RI needs bit columns of the matrix and rows up to `nrows`). -/
def colSwapInRows (A : Mzed) (a b start stop : Nat) : Option Mzed :=
  forC (fun e A =>
    (int? (A.w * a + e)).bind fun ca => (int? (A.w * b + e)).bind fun cb =>
    (need (ca < A.bitCols ∧ cb < A.bitCols ∧ start ≤ stop ∧ stop ≤ A.nrows)).bind fun _ =>
    some { A with words := mzdColSwapInRows A.words ca cb start stop }) A.ff.degree A

/-! ### whole matrices -/

/-- mzed.c:245-252 `mzed_set_ui(A,value)`. -/
def setUi (A : Mzed) (value : Word) : Option Mzed :=
  let A := { A with words := mzdClear A.nrows A.bitCols A.words }
  if value = 0#64 then some A else forC (fun i A => writeElem A i i value) (min A.ncols A.nrows) A

/-- mzed.c:128-138 `_mzed_mul_naive(C,A,B)`. -/
def mulNaive (C A B : Mzed) : Option Mzed :=
  forC (fun i C => forC (fun j C => forC (fun k C =>
    (readElem A i k).bind fun a => (readElem B k j).bind fun b => (fmul C.ff a b).bind fun m =>
    addElem C i j m) A.ncols C) C.ncols C) C.nrows C

/-- mzed.c:161-166 the direct branch of `mzed_mul_scalar(C,a,B)` (after the copy of `B` into `C`). -/
def rescaleAll (dbg : Bool) (a : Word) (n : Nat) (C : Mzed) : Option Mzed := forC (fun i C => rescaleRow dbg C i 0 a) n C

/-- mzed.c:221-223: first of the `n` rows from `r` on with a non-zero element in column `c`. -/
def findPivot (A : Mzed) (c : Nat) : Nat → Nat → Option (Option Nat)
  | 0, _ => some none
  | n + 1, r => (readElem A r c).bind fun x => if x ≠ 0#64 then some (some r) else findPivot A c n (r + 1)

/-- mzed.c:230-237 clear column `c` in the rows `elimStart ≤ i < nr`, `i ≠ startRow`. -/
def elimRows (dbg : Bool) (A : Mzed) (startRow c elimStart : Nat) : Option Mzed :=
  forC (fun k A =>
    let i := elimStart + k
    if i = startRow then some A
    else (readElem A i c).bind fun x => if x = 0#64 then some A else addMultipleOfRow dbg A i A startRow x c) (A.nrows - elimStart) A

/-- mzed.c:220-241 one column. -/
def echelonizeCol (dbg full : Bool) (c : Nat) (s : Mzed × Nat) : Option (Mzed × Nat) :=
  let A := s.1
  let startRow := s.2
  (findPivot A c (A.nrows - startRow) startRow).bind fun p =>
  match p with
  | none => some s
  | some r =>
    (readElem A r c).bind fun x =>
    (inv A.ff x).bind fun y =>
    (rescaleRow dbg A r c y).bind fun A =>
    (rowSwap A r startRow).bind fun A =>
    (elimRows dbg A startRow c (if full then 0 else startRow + 1)).bind fun A =>
    some (A, startRow + 1)

/-- mzed.c:208-243 `mzed_echelonize_naive(A,full)`. -/
def echelonizeNaive (dbg : Bool) (A : Mzed) (full : Bool) : Option (Mzed × Nat) := forC (echelonizeCol dbg full) A.ncols (A, 0)

/-- trsm.c:6-8, 20-22, newton_john.c:533-535, 555-557 the assertions of the triangular solvers. -/
def trsmAssert (dbg : Bool) (L B : Mzed) : Option Unit := assert? dbg (L.fid = B.fid ∧ L.nrows = L.ncols ∧ B.nrows = L.ncols)

/-- trsm.c:5-17 `mzed_trsm_upper_left_naive(U,B)`. -/
def trsmUpperNaive (dbg : Bool) (U B : Mzed) : Option Mzed :=
  (trsmAssert dbg U B).bind fun _ =>
  let n := B.nrows
  forC (fun t B =>
    let i := n - 1 - t
    (forC (fun d B => (readElem U i (i + 1 + d)).bind fun x => addMultipleOfRow dbg B i B (i + 1 + d) x 0) (n - (i + 1)) B).bind fun B =>
    (readElem U i i).bind fun x => (inv U.ff x).bind fun y => rescaleRow dbg B i 0 y) n B

/-- trsm.c:19-31 `mzed_trsm_lower_left_naive(L,B)`. -/
def trsmLowerNaive (dbg : Bool) (L B : Mzed) : Option Mzed :=
  (trsmAssert dbg L B).bind fun _ =>
  let n := B.nrows
  forC (fun i B =>
    (forC (fun k B => (readElem L i k).bind fun x => addMultipleOfRow dbg B i B k x 0) i B).bind fun B =>
    (readElem L i i).bind fun x => (inv L.ff x).bind fun y => rescaleRow dbg B i 0 y) n B

/-! ### Newton-John tables -/

/-- newton_john.c:179-226 row `ti` of the table from row `t1` and row `m`; all three rows have `width` words.  `ti-k` must
not lie before the row. -/
def njRow (homeblock width : Nat) (hi : Word) (m t1 ti : Nat → Word) : Option (Nat → Word) :=
  let wide := width - homeblock
  let n8 := 8 * ((wide - 1) / 8)
  let put := fun j (row : Nat → Word) =>
    (ldr width m (homeblock + j)).bind fun u => (ldr width t1 (homeblock + j)).bind fun v => str width row (homeblock + j) (u ^^^ v)
  (need (homeblock < width)).bind fun _ =>
  ((staleOffsets homeblock).foldl (fun row k => row.bind fun row => (need (k ≤ homeblock)).bind fun _ => str width row (homeblock - k) 0#64) (some ti)).bind fun row =>
  (forC put n8 row).bind fun row =>
  (forC (fun j => put (n8 + j)) (wide - n8 - 1) row).bind fun row =>
  (ldr width m (homeblock + (wide - 1))).bind fun u =>
  (ldr width t1 (homeblock + (wide - 1))).bind fun v => str width row (homeblock + (wide - 1)) ((u ^^^ v) &&& hi)

/-- newton_john.c:178-227 one iteration (`i = k+1`) of the table loop; `inc`, `ord` and `L` have `2^degree` entries. -/
def njStep (cb : Codebook) (M : Mzed) (homeblock : Nat) (k : Nat) (s : (Nat → Nat) × Mzed) : Option ((Nat → Nat) × Mzed) :=
  let L := s.1
  let T := s.2
  let i := k + 1
  (need (i < 2 ^ M.ff.degree)).bind fun _ =>
  let id := cb.ord i
  (need (id < 2 ^ M.ff.degree)).bind fun _ =>
  (rowOf M (cb.inc (i - 1))).bind fun m =>
  (rowOf T (i - 1)).bind fun t1 =>
  (rowOf T i).bind fun ti =>
  (need (T.width = M.width)).bind fun _ =>
  (njRow homeblock M.width M.highBitmask m t1 ti).bind fun row =>
  some (fun x => if x = id then i else L x, { T with words := setRow T.words i row })

/-- newton_john.c:156-233 `mzed_make_table(T,A,r,c)` with `T != NULL`. -/
def makeTable (dbg : Bool) (cb : Codebook) (T : Njt) (A : Mzed) (r c : Nat) : Option Njt :=
  (assert? dbg (64 > A.ff.degree)).bind fun _ =>
  let M := { T.M with words := mzdClear T.M.nrows T.M.bitCols T.M.words }
  (int? (A.w * c)).bind fun wc =>
  (forC (fun i M => (shl 1#64 i).bind fun x => addMultipleOfRow dbg M i A r x c) A.ff.degree M).bind fun M =>
  (forC (njStep cb M (wc / 64)) (T.T.nrows - 1) (T.L, T.T)).bind fun s =>
  some ⟨s.1, M, s.2⟩

/-- newton_john.c:274-323 and 436-443: tables `q = 0 … n-1` for rows `r+q` from columns `c + dc*q` on. -/
def makeTables (dbg : Bool) (cb : Codebook) (A : Mzed) (r c dc n : Nat) (Ts : Nat → Njt) : Option (Nat → Njt) :=
  forC (fun q (Ts : Nat → Njt) => (makeTable dbg cb (Ts q) A (r + q) (c + dc * q)).bind fun T => some (fun k => if k = q then T else Ts k)) n Ts

/-- `T->L[x]`, an array of `2^degree` entries whose value is used as a row of `T->T` -/
def lookup (T : Njt) (x : Word) : Option Nat :=
  (need (x.toNat < 2 ^ T.T.ff.degree)).bind fun _ => (need (T.L x.toNat < T.T.nrows)).bind fun _ => some (T.L x.toNat)

/-- `mzd_combine(C->x,j,0,C->x,j,0,T->T->x,x,0)` (newton_john.c:405, 547, 569; M4RI: rows of the matrices, equal widths). -/
def combine (C : Mzed) (j : Nat) (T : Mzed) (x : Nat) : Option Mzed :=
  (need (j < C.nrows ∧ x < T.nrows ∧ C.width = T.width ∧ 0 < C.width)).bind fun _ => some (mzedCombine C j T x)

/-- newton_john.c:91-97 `mzed_combine8`: the rows `x q` of the tables `q < 8`, `width` whole words of each. -/
def combine8 (C : Mzed) (j : Nat) (Ts : Nat → Njt) (x : Nat → Nat) : Option Mzed :=
  (need (j < C.nrows ∧ ∀ q ∈ List.range 8, x q < (Ts q).T.nrows ∧ C.width ≤ (Ts q).T.width)).bind fun _ => some (mzedCombine8 C j Ts x)

/-- all of `f 0, …, f (n-1)` -/
def collect (f : Nat → Option Nat) : Nat → Option (Nat → Nat)
  | 0 => some fun _ => 0
  | n + 1 => (collect f n).bind fun g => (f n).bind fun v => some (fun k => if k = n then v else g k)

/-- newton_john.h:227-229 `mzed_process_rows` and newton_john.h:231-330: `mzed_process_rows2`, …, `mzed_process_rows6` (M4RI reads `n*w ≤ 64` bits at
`startcol*w`, inside the row, and adds rows of the tables to the words from there on). -/
def processRows (M : Mzed) (startrow endrow startcol : Nat) (n : Nat) (Ts : Nat → Njt) : Option Mzed :=
  (int? (startcol * M.w)).bind fun sc =>
  forC (fun k M =>
    let r := startrow + k
    (need (r < M.nrows ∧ n * M.w ≤ 64 ∧ sc + n * M.w ≤ M.bitCols)).bind fun _ =>
    (collect (fun q => (readElem M r (startcol + q)).bind fun v => lookup (Ts q) v) n).bind fun x =>
    (need (∀ q ∈ List.range n, M.width ≤ (Ts q).T.width)).bind fun _ =>
    let row := fun b => if sc / 64 ≤ b ∧ b < M.width then M.words r b ^^^ xorTables Ts x b n else M.words r b
    some { M with words := setRow M.words r row }) (endrow - startrow) M

/-- newton_john.c:399-410 `_mzed_mul_newton_john0(C,A,B)`, columns `from … from+n-1` of `A`. -/
def mulNj0From (dbg : Bool) (cb : Codebook) (C A B : Mzed) (T0 : Njt) (from_ n : Nat) : Option (Mzed × Njt) :=
  forC (fun k (s : Mzed × Njt) =>
    let i := from_ + k
    (makeTable dbg cb s.2 B i 0).bind fun T0 =>
    (forC (fun j C => (readElem A j i).bind fun v => (lookup T0 v).bind fun x => combine C j T0.T x) A.nrows s.1).bind fun C =>
    some (C, T0)) n (C, T0)

/-- newton_john.c:434-455 and 459-480: one giant step. -/
def njGiant (dbg : Bool) (cb : Codebook) (A B : Mzed) (giantstep count end_ : Nat) (s : Mzed × (Nat → Njt)) : Option (Mzed × (Nat → Njt)) :=
  forC (fun i (s : Mzed × (Nat → Njt)) =>
    (makeTables dbg cb B (8 * i) 0 0 8 s.2).bind fun Ts =>
    (forC (fun babystep C =>
      let j := giantstep + babystep
      (collect (fun q => (readElem A j (8 * i + q)).bind fun v => lookup (Ts q) v) 8).bind fun x => combine8 C j Ts x) count s.1).bind fun C =>
    some (C, Ts)) end_ s

/-- newton_john.c:412-495 `_mzed_mul_newton_john(C,A,B)`. -/
def mulNewtonJohn (dbg : Bool) (cb : Codebook) (mulBlocksize : Nat) (C A B : Mzed) : Option Mzed :=
  if A.ff.degree > A.nrows then mulNaive C A B
  else
    let Ts := fun _ => njtInit B.ff B.fid B.ncols
    let end_ := A.ncols / 8
    let blocksize := njBlocksize mulBlocksize A.w A.nrows
    let steps := A.nrows / blocksize
    (forC (fun g s => njGiant dbg cb A B (g * blocksize) blocksize end_ s) steps (C, Ts)).bind fun s =>
    let giantstep := steps * blocksize
    (njGiant dbg cb A B giantstep (A.nrows - giantstep) end_ s).bind fun s =>
    if A.ncols % 8 ≠ 0 then (mulNj0From dbg cb s.1 A B (s.2 0) (8 * end_) (A.ncols - 8 * end_)).map (·.1) else some s.1

/-- newton_john.c:128-131 clear the columns `c … c+n-1` of row `i` with the rows `r … r+n-1`. -/
def gaussClear (dbg : Bool) (A : Mzed) (i r c n : Nat) : Option Mzed :=
  forC (fun l A => (readElem A i (c + l)).bind fun tmp =>
    if tmp = 0#64 then some A else addMultipleOfRow dbg A i A (r + l) tmp (c + l)) n A

/-- newton_john.c:139-142 clear column `j` in the rows `r … r+n-1` with row `startRow`. -/
def gaussAbove (dbg : Bool) (A : Mzed) (r n startRow j : Nat) : Option Mzed :=
  forC (fun l A => (readElem A (r + l) j).bind fun tmp =>
    if tmp = 0#64 then some A else addMultipleOfRow dbg A (r + l) A startRow tmp j) n A

/-- newton_john.c:126-147 search rows `i, i+1, …` (`n` of them) for a pivot in column `c+t`. -/
def gaussRow (dbg : Bool) (r c t : Nat) : Nat → Nat → Mzed → Option (Mzed × Bool)
  | 0, _, A => some (A, false)
  | n + 1, i, A =>
    (gaussClear dbg A i r c t).bind fun A =>
    (readElem A i (c + t)).bind fun x =>
    if x = 0#64 then gaussRow dbg r c t n (i + 1) A
    else
      (inv A.ff x).bind fun y =>
      (rescaleRow dbg A i (c + t) y).bind fun A =>
      (rowSwap A i (r + t)).bind fun A =>
      (gaussAbove dbg A r t (r + t) (c + t)).bind fun A => some (A, true)

/-- newton_john.c:124-152: columns `c+t, …` (`k` of them). -/
def gaussCols (dbg : Bool) (r c endRow : Nat) : Nat → Nat → Mzed → Option (Mzed × Nat)
  | 0, t, A => some (A, t)
  | k + 1, t, A =>
    (gaussRow dbg r c t (endRow - (r + t)) (r + t) A).bind fun s =>
    if s.2 then gaussCols dbg r c endRow k (t + 1) s.1 else some (s.1, t)

/-- newton_john.c:267-338 the while loop (at most `fuel` iterations). -/
def njEchLoop (dbg : Bool) (cb : Codebook) (full : Bool) : Nat → Mzed → (Nat → Njt) → Nat → Nat → Nat → Option (Mzed × Nat)
  | 0, A, _, r, _, _ => some (A, r)
  | fuel + 1, A, Ts, r, c, kk =>
    if c < A.ncols then
      let kk := if c + kk > A.ncols then A.ncols - c else kk
      (gaussCols dbg r c A.nrows kk 0 A).bind fun g =>
      let A := g.1
      let kbar := g.2
      if 1 ≤ kbar ∧ kbar ≤ 6 then
        (makeTables dbg cb A r c 1 kbar Ts).bind fun Ts =>
        (if kbar = kk then processRows A (r + kbar) A.nrows c kbar Ts else some A).bind fun A =>
        (if full then processRows A 0 r c kbar Ts else some A).bind fun A =>
        njEchLoop dbg cb full fuel A Ts (r + kbar) (c + kbar) kk
      else njEchLoop dbg cb full fuel A Ts (r + kbar) (c + 1 + kbar) kk
    else some (A, r)

/-- newton_john.c:235-347 `mzed_echelonize_newton_john(A,full)`. -/
def echelonizeNewtonJohn (dbg : Bool) (cb : Codebook) (optK : Nat) (small : Bool) (A : Mzed) (full : Bool) : Option (Mzed × Nat) :=
  njEchLoop dbg cb full A.ncols A (fun _ => njtInit A.ff A.fid A.ncols) 0 0 (njKK A.ff.degree optK small)

/-- newton_john.c:532-552 `mzed_trsm_lower_left_newton_john(L,B)`. -/
def trsmLowerNj (dbg : Bool) (cb : Codebook) (L B : Mzed) : Option Mzed :=
  (trsmAssert dbg L B).bind fun _ =>
  if 2 ^ L.ff.degree ≥ L.nrows then trsmLowerNaive dbg L B
  else
    let n := B.nrows
    (forC (fun i (s : Mzed × Njt) =>
      (readElem L i i).bind fun x => (inv L.ff x).bind fun y => (rescaleRow dbg s.1 i 0 y).bind fun B =>
      (makeTable dbg cb s.2 B i 0).bind fun T0 =>
      (forC (fun d B => (readElem L (i + 1 + d) i).bind fun v => (lookup T0 v).bind fun x => combine B (i + 1 + d) T0.T x) (n - (i + 1)) B).bind fun B =>
      some (B, T0)) n (B, njtInit B.ff B.fid B.ncols)).map (·.1)

/-- newton_john.c:554-574 `mzed_trsm_upper_left_newton_john(U,B)`. -/
def trsmUpperNj (dbg : Bool) (cb : Codebook) (U B : Mzed) : Option Mzed :=
  (trsmAssert dbg U B).bind fun _ =>
  if 2 ^ U.ff.degree ≥ U.nrows then trsmUpperNaive dbg U B
  else
    let n := B.nrows
    (forC (fun t (s : Mzed × Njt) =>
      let i := n - 1 - t
      (readElem U i i).bind fun x => (inv U.ff x).bind fun y => (rescaleRow dbg s.1 i 0 y).bind fun B =>
      (makeTable dbg cb s.2 B i 0).bind fun T0 =>
      (forC (fun j B => (readElem U j i).bind fun v => (lookup T0 v).bind fun x => combine B j T0.T x) i B).bind fun B =>
      some (B, T0)) n (B, njtInit B.ff B.fid B.ncols)).map (·.1)

/-! ### PLE -/

/-- ple.c:35-45 (newton_john.c:361-371) the pivot search. -/
def plePivot (A : Mzed) (rowPos : Nat) : Nat → Nat → Option (Option (Nat × Nat))
  | 0, _ => some none
  | n + 1, j =>
    (findPivot A j (A.nrows - rowPos) rowPos).bind fun p =>
    match p with
    | some i => some (some (i, j))
    | none => plePivot A rowPos n (j + 1)

/-- ple.c:33-63 (newton_john.c:359-386) the while loop; `P` has `nrows`, `Q` has `ncols` entries. -/
def pleLoop {τ : Type} (clear : Nat → Nat → Word → Mzed × τ → Option (Mzed × τ)) : Nat → PleState τ → Option (PleState τ)
  | 0, s => some s
  | fuel + 1, s =>
    if s.rowPos < s.A.nrows ∧ s.colPos < s.A.ncols then
      (plePivot s.A s.rowPos (s.A.ncols - s.colPos) s.colPos).bind fun p =>
      match p with
      | none => some s
      | some (i, j) =>
        (readElem s.A i j).bind fun tmp =>
        (need (s.rowPos < s.A.nrows ∧ s.rowPos < s.A.ncols)).bind fun _ =>
        (rowSwap s.A s.rowPos i).bind fun A =>
        (if j + 1 < A.ncols then clear s.rowPos j tmp (A, s.T) else some (A, s.T)).bind fun p =>
        pleLoop clear fuel ⟨p.1, setNat s.P s.rowPos i, setNat s.Q s.rowPos j, s.rowPos + 1, j + 1, p.2⟩
    else some s

/-- ple.c:64-71 (newton_john.c:387-396). -/
def pleFinish {τ : Type} (s : PleState τ) : Option (Mzed × (Nat → Nat) × (Nat → Nat) × Nat) :=
  let P := fun i => if s.rowPos ≤ i ∧ i < s.A.nrows then i else s.P i
  let Q := fun i => if s.rowPos ≤ i ∧ i < s.A.ncols then i else s.Q i
  (forC (fun i A => (need (i < A.ncols)).bind fun _ => colSwapInRows A i (Q i) i A.nrows) s.rowPos s.A).bind fun A => some (A, P, Q, s.rowPos)

/-- ple.c:51-56 -/
def pleClearNaive (dbg : Bool) (rowPos j : Nat) (tmp : Word) (s : Mzed × Unit) : Option (Mzed × Unit) :=
  (inv s.1.ff tmp).bind fun y =>
  (rescaleRow dbg s.1 rowPos (j + 1) y).bind fun A =>
  (forC (fun d A =>
    let l := rowPos + 1 + d
    (readElem A l j).bind fun tmp =>
    if tmp ≠ 0#64 then addMultipleOfRow dbg A l A rowPos tmp (j + 1) else some A) (A.nrows - (rowPos + 1)) A).bind fun A => some (A, ())

/-- ple.c:25-72 `mzed_ple_naive(A,P,Q)`. -/
def pleNaive (dbg : Bool) (A : Mzed) (P Q : Nat → Nat) : Option (Mzed × (Nat → Nat) × (Nat → Nat) × Nat) :=
  (pleLoop (pleClearNaive dbg) A.ncols ⟨A, P, Q, 0, 0, ()⟩).bind pleFinish

/-- newton_john.c:377-379 -/
def pleClearNj (dbg : Bool) (cb : Codebook) (rowPos j : Nat) (tmp : Word) (s : Mzed × Njt) : Option (Mzed × Njt) :=
  (inv s.1.ff tmp).bind fun y =>
  (rescaleRow dbg s.1 rowPos (j + 1) y).bind fun A =>
  (makeTable dbg cb s.2 A rowPos (j + 1)).bind fun T0 =>
  (processRows A (rowPos + 1) A.nrows j 1 (fun _ => T0)).bind fun A => some (A, T0)

/-- newton_john.c:349-397 `mzed_ple_newton_john(A,P,Q)`. -/
def pleNewtonJohn (dbg : Bool) (cb : Codebook) (A : Mzed) (P Q : Nat → Nat) : Option (Mzed × (Nat → Nat) × (Nat → Nat) × Nat) :=
  (pleLoop (pleClearNj dbg cb) A.ncols ⟨A, P, Q, 0, 0, njtInit A.ff A.fid A.ncols⟩).bind pleFinish

end M4rie.Chk
