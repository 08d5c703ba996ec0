import Verif.Model.SliceOps
import Verif.Model.NjEchelon

/-!
# Output arguments: NULL, given, and identical with an input

The other modules model functions on values. Here the packed matrices live in a store and the functions get the
*numbers* of their arguments, so that a call like `mzed_mul(A,A,B)`, where the output is one of the inputs, is modelled step
by step: whatever is written to the output is seen by the next read of the input.

Simplification: matrices are distinct objects or the same object (windows: `Model/View.lean`); calls of M4RI (`mzd_add`,
`mzd_copy`, `mzd_concat`, ...) are single steps, `mzd_add` allows its output to be one of its inputs.
-/

namespace M4rie.Store

/-- packed matrices by number -/
abbrev Objs := Nat → Mzed

/-- the object `c` is overwritten -/
def upd (s : Objs) (c : Nat) (X : Mzed) : Objs := fun k => if k = c then X else s k

/-- an output argument: `NULL` (a new object, which gets the number `k`) or the matrix number `k` -/
inductive Out where
  | null (k : Nat)
  | given (k : Nat)

/-- the number of the returned matrix -/
def Out.id : Out → Nat
  | .null k => k
  | .given k => k

/-- `if(C == NULL) C = mzed_init(F->finite_field, m, n);` (mzed.c:57-58, 78-79, 145-146, 199-200, mzed.h:112-113, 136-137,
158-159). -/
def output (s : Objs) (c : Out) (F : Mzed) (m n : Nat) : Objs :=
  match c with
  | .null k => upd s k (mzedInit F.ff F.fid m n)
  | .given _ => s

/-- mzed.c:53-66 `mzed_add(C,A,B)`. -/
def add? (s : Objs) (c : Out) (a b : Nat) : Option Objs :=
  if (s a).nrows ≠ (s b).nrows ∨ (s a).ncols ≠ (s b).ncols ∨ (s a).fid ≠ (s b).fid then none
  else
    let bad := match c with
      | .null _ => false
      | .given k => k ≠ a && ((s k).fid ≠ (s a).fid || (s k).nrows ≠ (s a).nrows || (s k).ncols ≠ (s a).ncols)
    if bad then none
    else
      let s := output s c (s a) (s a).nrows (s a).ncols
      some (upd s c.id { s c.id with words := mzdAdd (s a).nrows (s a).bitCols (s c.id).words (s a).words (s b).words })

/-- mzed.c:196-206 `mzed_copy(A,B)`. -/
def copy? (s : Objs) (c : Out) (b : Nat) : Option Objs :=
  if c.id = b then some s
  else
    let s := output s c (s b) (s b).nrows (s b).ncols
    (mzedCopy? (s c.id) (s b)).map (upd s c.id)

/-- mzed.c:170-190: row `i` of the table method, word by word. -/
def scalarRow (mul : Nat → Word) (c b i : Nat) (s : Objs) : Objs :=
  let put := fun (s : Objs) (j : Nat) (v : Word) => upd s c { s c with words := setRow (s c).words i (setWord ((s c).words i) j v) }
  let s := forN (fun j s => put s j (scalarWord mul ((s b).words i j))) ((s c).width - 1) s
  let tmp := (s b).words i ((s b).width - 1) &&& (s b).highBitmask
  let s := put s ((s c).width - 1) ((s c).words i ((s c).width - 1) &&& ~~~(s b).highBitmask)
  put s ((s c).width - 1) ((s c).words i ((s c).width - 1) ||| scalarWord mul tmp)

/-- mzed.c:141-193 `mzed_mul_scalar(C,a,B)`; `none`: as in `mzedMulScalar?`. -/
def mulScalar? (s : Objs) (c : Out) (x : Word) (b : Nat) : Option Objs :=
  let s := output s c (s b) (s b).nrows (s b).ncols
  if (s b).ff.degree > 8 ∨ (s b).nrows * (s b).ncols < 2 ^ 17 then
    (copy? s (.given c.id) b).map fun s => forN (fun i s => upd s c.id (mzedRescaleRow (s c.id) i 0 x)) (s b).nrows s
  else if (List.range (2 ^ 16)).all (fun i => (t16? (s b).ff x i).isSome) then
    let mul := fun i => (t16? (s b).ff x i).getD 0#64
    some (forN (fun i s => scalarRow mul c.id b i s) (s c.id).nrows s)
  else none

/-- mzed.c:74-88 `_mzed_mul_init(C,A,B,clear)`. -/
def mulInit? (s : Objs) (c : Out) (a b : Nat) (clear : Bool) : Option Objs :=
  if (s a).ncols ≠ (s b).nrows ∨ (s a).fid ≠ (s b).fid then none
  else match c with
    | .null _ => some (output s c (s a) (s a).nrows (s b).ncols)
    | .given k =>
      if (s k).fid ≠ (s a).fid ∨ (s k).nrows ≠ (s a).nrows ∨ (s k).ncols ≠ (s b).ncols then none
      else if clear then some (upd s k (mzedSetUi (s k) 0#64)) else some s

/-- mzed.c:128-138 `_mzed_mul_naive(C,A,B)`. -/
def mulNaiveAcc (s : Objs) (c a b : Nat) : Objs :=
  forN (fun i s => forN (fun j s => forN (fun k s =>
    upd s c (mzedAddElem (s c) i j (gf2eMul (s c).ff (mzedReadElem (s a) i k) (mzedReadElem (s b) k j)))) (s a).ncols s)
    (s c).ncols s) (s c).nrows s

/-- mzed.c:118-121 `mzed_mul_naive(C,A,B)`. -/
def mulNaive? (s : Objs) (c : Out) (a b : Nat) : Option Objs := (mulInit? s c a b true).map fun s => mulNaiveAcc s c.id a b

/-- mzed.c:123-126 `mzed_addmul_naive(C,A,B)`. -/
def addmulNaive? (s : Objs) (c : Out) (a b : Nat) : Option Objs := (mulInit? s c a b false).map fun s => mulNaiveAcc s c.id a b

/-- conversion.h:148-165 `_mzed_addmul_karatsuba(C,A,B)`: all three matrices are sliced before `C` is written. -/
def addmulKara? (s : Objs) (c a b : Nat) : Option Objs :=
  (mzedSliceNew? (s c)).bind fun Cs => (mzedSliceNew? (s a)).bind fun As => (mzedSliceNew? (s b)).bind fun Bs =>
  (mzdSliceAddmulKara? Cs As Bs).bind fun Cs => (mzedCling? (s c) Cs).map (upd s c)

/-- conversion.h:177-186 `mzed_mul_karatsuba(C,A,B)`. -/
def mulKaratsuba? (s : Objs) (c : Out) (a b : Nat) : Option Objs := (mulInit? s c a b true).bind fun s => addmulKara? s c.id a b

/-- conversion.h:196-203 `mzed_addmul_karatsuba(C,A,B)`. -/
def addmulKaratsuba? (s : Objs) (c : Out) (a b : Nat) : Option Objs := (mulInit? s c a b false).bind fun s => addmulKara? s c.id a b

/-- mzed.h:111-116 `mzed_concat(C,A,B)`; `mzd_concat` dies if the dimensions do not fit. -/
def concat? (s : Objs) (c : Out) (a b : Nat) : Option Objs :=
  let s := output s c (s a) (s a).nrows ((s a).ncols + (s b).ncols)
  if (s a).nrows = (s b).nrows ∧ (s c.id).nrows = (s a).nrows ∧ (s c.id).bitCols = (s a).bitCols + (s b).bitCols then
    some (upd s c.id { s c.id with
      words := mzdConcat (s a).nrows (s a).bitCols (s b).bitCols (s c.id).words (s a).words (s b).words })
  else none

/-- mzed.h:135-140 `mzed_stack(C,A,B)`; `mzd_stack` dies if the dimensions do not fit. -/
def stack? (s : Objs) (c : Out) (a b : Nat) : Option Objs :=
  let s := output s c (s a) ((s a).nrows + (s b).nrows) (s a).ncols
  if (s a).bitCols = (s b).bitCols ∧ (s c.id).nrows = (s a).nrows + (s b).nrows ∧ (s c.id).bitCols = (s a).bitCols then
    some (upd s c.id { s c.id with
      words := mzdStack (s a).nrows (s b).nrows (s a).bitCols (s c.id).words (s a).words (s b).words })
  else none

/-- mzed.h:157-163 `mzed_submatrix(S,M,lowr,lowc,highr,highc)` with `S` of exactly the size of the block (`mzd_submatrix`
dies if `S` is smaller; larger ones are not modelled). -/
def submatrix? (s : Objs) (c : Out) (a lowr lowc highr highc : Nat) : Option Objs :=
  let s := output s c (s a) (highr - lowr) (highc - lowc)
  if (s c.id).nrows = highr - lowr ∧ (s c.id).bitCols = highc * (s a).w - lowc * (s a).w then
    some (upd s c.id { s c.id with words := mzdSubmatrix (s c.id).words (s a).words lowr (lowc * (s a).w) highr (highc * (s a).w) })
  else none

/-- newton_john.c:508-530 `mzed_invert_newton_john(B,A)`; `t` is the number of the temporary `T`, which is a new object. -/
def invert? (cb : Codebook) (optK : Nat) (small : Bool) (s : Objs) (b : Out) (a t : Nat) : Option Objs :=
  let I := mzedSetUi (mzedInit (s a).ff (s a).fid (s a).nrows (s a).ncols) 1#64
  let T := (mzedEchelonizeNewtonJohn cb optK small (mzedConcat (s a) I) true).1
  if mzedEq I (mzedWindow T 0 0 (s a).nrows (s a).ncols) then
    (submatrix? (upd s t T) b t 0 (s a).ncols (s a).nrows T.ncols).map fun s' => upd s' t (s t)
  else none

end M4rie.Store
