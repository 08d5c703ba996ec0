import Verif.Model.Output
import Verif.Model.Blm

/-!
# Output arguments of the functions on sliced matrices

As `Model/Output.lean`, for sliced matrices: the matrices live in a store, the functions get the numbers of their arguments,
and every access to a GF(2)-slice reads the store as it is at that moment, so that calls with the output identical to an
input are modelled step by step.

Simplification: two sliced matrices are the same object or share no memory; one call of M4RI (`mzd_add`, `mzd_mul`, ...) is
one step, `mzd_add` allows its output to be one of its inputs, `mzd_copy` of a matrix to itself does nothing.
-/

namespace M4rie.SStore
open M4rie.Store (Out)

/-- sliced matrices by number -/
abbrev SObjs := Nat → Slice

/-- the object `c` is overwritten -/
def supd (s : SObjs) (c : Nat) (X : Slice) : SObjs := fun k => if k = c then X else s k

/-- the slices of the object `c` are overwritten -/
def sputAll (s : SObjs) (c : Nat) (x : Nat → Nat → Nat → Word) : SObjs := supd s c { s c with x := x }

/-- slice `i` of the object `c` is overwritten -/
def sput (s : SObjs) (c i : Nat) (v : Nat → Nat → Word) : SObjs := sputAll s c (setSlice (s c).x i v)

/-- `if(C == NULL) C = mzd_slice_init(F->finite_field, m, n);` (mzd_slice.h:165-166, 398-399, 425-426, 449-450, 541-542,
625-626, 707-708, mzd_slice.c:26-27). -/
def soutput (s : SObjs) (c : Out) (F : Slice) (m n : Nat) : SObjs :=
  match c with
  | .null k => supd s k (mzdSliceInit F.ff F.fid m n)
  | .given _ => s

/-- mzd_slice.h:164-172 `mzd_slice_copy(B,A)`; `mzd_copy` dies if the output is too small. -/
def scopy? (s : SObjs) (c : Out) (a : Nat) : Option SObjs :=
  let s := soutput s c (s a) (s a).nrows (s a).ncols
  forNM (fun i s =>
    if i < (s c.id).depth ∧ (s a).nrows ≤ (s c.id).nrows ∧ (s a).ncols ≤ (s c.id).ncols then
      some (if c.id = a then s else sput s c.id i (mzdCopy (s a).nrows (s a).ncols ((s c.id).x i) ((s a).x i)))
    else none) (s a).depth s

/-- mzd_slice.h:537-547 `mzd_slice_add(C,A,B)` with mzd_ptr.h:83-123: the slices `depth-1, .., 0` one after another. -/
def sadd? (s : SObjs) (c : Out) (a b : Nat) : Option SObjs :=
  if (s a).fid ≠ (s b).fid ∨ (s a).nrows ≠ (s b).nrows ∨ (s a).ncols ≠ (s b).ncols then none
  else
    let bad := match c with
      | .null _ => false
      | .given k => (s a).fid ≠ (s k).fid || (s a).nrows ≠ (s k).nrows || (s a).ncols ≠ (s k).ncols
    if bad then none
    else
      let s := soutput s c (s a) (s a).nrows (s a).ncols
      let n := (s a).depth
      some (forN (fun i s => let k := n - 1 - i
        sput s c.id k (mzdAdd (s a).nrows (s a).ncols ((s c.id).x k) ((s a).x k) ((s b).x k))) n s)

/-- mzd_ptr.h:38-53 `_mzd_ptr_add_modred(ff,A,X,t)` where `X` are the slices of the object `c` and `A` is a matrix which is
possibly one of them, so that it is read again for every addition. -/
def smodred? (ff : Gf2e) (nr nc c : Nat) (A : SObjs → Nat → Nat → Word) (t : Nat) (s : SObjs) : Option SObjs :=
  if mzdIsZero nr nc (A s) then some s
  else if t < ff.degree then some (sput s c t (mzdAdd nr nc ((s c).x t) ((s c).x t) (A s)))
  else if ¬ t < 2 * ff.degree - 1 then none
  else some (forN (fun i s =>
    if ff.powGen t &&& twoPow i ≠ 0#64 then sput s c i (mzdAdd nr nc ((s c).x i) ((s c).x i) (A s)) else s) ff.degree s)

/-- mzd_slice.c:35-40 and 48-53: the loop of `mzd_slice_mul_scalar` and `mzd_slice_addmul_scalar`. -/
def sscalarLoop? (s : SObjs) (c : Nat) (a : Word) (b : Nat) : Option SObjs :=
  forNM (fun i s => if a &&& twoPow i ≠ 0#64 then
    forNM (fun j s => smodred? (s b).ff (s b).nrows (s b).ncols c (fun s => (s b).x j) (i + j) s) (s b).depth s else some s)
    (s b).ff.degree s

/-- mzd_slice.c:43-55 `mzd_slice_addmul_scalar(C,a,B)`. -/
def saddmulScalar? (s : SObjs) (c : Nat) (a : Word) (b : Nat) : Option SObjs :=
  if (s c).fid = (s b).fid ∧ (s c).nrows = (s b).nrows ∧ (s c).ncols = (s b).ncols then sscalarLoop? s c a b else none

/-- mzd_slice.c:25-41 `mzd_slice_mul_scalar(C,a,B)`. -/
def smulScalar? (s : SObjs) (c : Out) (a : Word) (b : Nat) : Option SObjs :=
  let s := match c with
    | .null _ => soutput s c (s b) (s b).nrows (s b).ncols
    | .given k => supd s k (mzdSliceSetUi (s k) 0#64)
  saddmulScalar? s c.id a b

/-- mzd_slice.c:82-98 `_mzd_slice_addmul_naive(C,A,B)`. -/
def saddmulNaive? (s : SObjs) (c a b : Nat) : Option SObjs :=
  forNM (fun i s => forNM (fun j s =>
    let t0 := mzdMul (s a).nrows (s a).ncols (s b).ncols (fun _ _ => 0#64) ((s a).x i) ((s b).x j)
    smodred? (s a).ff (s a).nrows (s b).ncols c (fun _ => t0) (i + j) s) (s a).ff.degree s) (s a).ff.degree s

/-- One statement of a routine in karatsuba.c: the operands are added up in temporaries, multiplied into a temporary, and
the result is added to slices of `C` (`ptrAddToAll`, mzd_ptr.h:64-81). -/
def skaraTerm? (ff : Gf2e) (m k n c a b : Nat) (s : SObjs) (t : KaraTerm) : Option SObjs :=
  (ptrAddToAll (some ff) m n (mzdMul m k n (fun _ _ => 0#64) (karaOperand m k (s a).x t.as) (karaOperand k n (s b).x t.bs))
    t.targets (s c).x).map (sputAll s c)

/-- karatsuba.c: the statements one after another. -/
def skaraRun? (terms : List KaraTerm) (ff : Gf2e) (m k n c a b : Nat) (s : SObjs) : Option SObjs :=
  terms.foldlM (skaraTerm? ff m k n c a b) s

/-- karatsuba.c:4-23 `_mzd_ptr_addmul_karatsuba2`. -/
def skara2Run? (ff : Gf2e) (m k n c a b : Nat) (s : SObjs) : Option SObjs :=
  skaraRun? karaTerms2 ff m k n c a b
    (sput s c 1 (mzdAddmul m k n ((s c).x 1) (mzdAdd m k (fun _ _ => 0#64) ((s a).x 0) ((s a).x 1))
      (mzdAdd k n (fun _ _ => 0#64) ((s b).x 0) ((s b).x 1))))

/-- mzd_slice.h:624-647 `_mzd_slice_addmul_karatsuba(C,A,B)`, `C != NULL`. -/
def saddmulKara? (s : SObjs) (c a b : Nat) : Option SObjs :=
  let ff := (s a).ff
  let m := (s a).nrows
  let k := (s a).ncols
  let n := (s b).ncols
  match ff.degree with
  | 2 => skara2Run? ff m k n c a b s
  | 3 => skaraRun? karaTerms3 ff m k n c a b s
  | 4 => skaraRun? karaTerms4 ff m k n c a b s
  | 5 => skaraRun? karaTerms5 ff m k n c a b s
  | 6 => skaraRun? karaTerms6 ff m k n c a b s
  | 7 => skaraRun? karaTerms7 ff m k n c a b s
  | 8 => skaraRun? karaTerms8 ff m k n c a b s
  | 9 => skaraRun? karaTerms9 ff m k n c a b s
  | 10 => skaraRun? karaTerms10 ff m k n c a b s
  | 11 => skaraRun? karaTerms11 ff m k n c a b s
  | 12 => skaraRun? karaTerms12 ff m k n c a b s
  | 13 => skaraRun? karaTerms13 ff m k n c a b s
  | 14 => skaraRun? karaTerms14 ff m k n c a b s
  | 15 => skaraRun? karaTerms15 ff m k n c a b s
  | 16 => skaraRun? karaTerms16 ff m k n c a b s
  | _ => saddmulNaive? s c a b

/-- mzd_slice.h:661-670 `mzd_slice_mul_karatsuba(C,A,B)` (also `mzd_slice_mul`). -/
def smulKaratsuba? (s : SObjs) (c : Out) (a b : Nat) : Option SObjs :=
  if (s a).ncols ≠ (s b).nrows ∨ (s a).fid ≠ (s b).fid then none
  else match c with
    | .null k => saddmulKara? (soutput s c (s a) (s a).nrows (s b).ncols) k a b
    | .given k =>
      if (s k).fid ≠ (s a).fid ∨ (s k).nrows ≠ (s a).nrows ∨ (s k).ncols ≠ (s b).ncols then none
      else saddmulKara? (supd s k (mzdSliceSetUi (s k) 0#64)) k a b

/-- mzd_slice.h:684-691 `mzd_slice_addmul_karatsuba(C,A,B)` (also `mzd_slice_addmul`). -/
def saddmulKaratsuba? (s : SObjs) (c a b : Nat) : Option SObjs :=
  if (s a).ncols ≠ (s b).nrows ∨ (s a).fid ≠ (s b).fid then none
  else if (s c).fid ≠ (s a).fid ∨ (s c).nrows ≠ (s a).nrows ∨ (s c).ncols ≠ (s b).ncols then none
  else saddmulKara? s c a b

/-- mzd_slice.h:397-405 `mzd_slice_concat(C,A,B)`; `mzd_concat` dies if the dimensions do not fit. -/
def sconcat? (s : SObjs) (c : Out) (a b : Nat) : Option SObjs :=
  let s := soutput s c (s a) (s a).nrows ((s a).ncols + (s b).ncols)
  forNM (fun i s =>
    if i < (s b).depth ∧ i < (s c.id).depth ∧ (s a).nrows = (s b).nrows ∧ (s c.id).nrows = (s a).nrows ∧ (s c.id).ncols = (s a).ncols + (s b).ncols then
      some (sput s c.id i (mzdConcat (s a).nrows (s a).ncols (s b).ncols ((s c.id).x i) ((s a).x i) ((s b).x i)))
    else none) (s a).depth s

/-- mzd_slice.h:424-432 `mzd_slice_stack(C,A,B)`; `mzd_stack` dies if the dimensions do not fit. -/
def sstack? (s : SObjs) (c : Out) (a b : Nat) : Option SObjs :=
  let s := soutput s c (s a) ((s a).nrows + (s b).nrows) (s a).ncols
  forNM (fun i s =>
    if i < (s b).depth ∧ i < (s c.id).depth ∧ (s a).ncols = (s b).ncols ∧ (s c.id).nrows = (s a).nrows + (s b).nrows ∧ (s c.id).ncols = (s a).ncols then
      some (sput s c.id i (mzdStack (s a).nrows (s b).nrows (s a).ncols ((s c.id).x i) ((s a).x i) ((s b).x i)))
    else none) (s a).depth s

/-- mzd_slice.h:447-456 `mzd_slice_submatrix(S,A,lowr,lowc,highr,highc)` with `S` of exactly the size of the block
(`mzd_submatrix` dies if `S` is smaller; larger ones are not modelled). -/
def ssubmatrix? (s : SObjs) (c : Out) (a lowr lowc highr highc : Nat) : Option SObjs :=
  let s := soutput s c (s a) (highr - lowr) (highc - lowc)
  forNM (fun i s =>
    if i < (s c.id).depth ∧ (s c.id).nrows = highr - lowr ∧ (s c.id).ncols = highc - lowc then
      some (sput s c.id i (mzdSubmatrix ((s c.id).x i) ((s a).x i) lowr lowc highr highc))
    else none) (s a).depth s

/-- mzd_slice.h:744-753 `mzd_slice_mul_blm(C,A,B,NULL)`: the map is compiled (mzd_slice.h:719), so that `A` and `B` are read
completely (blm.c:80-81) before `C` is written (blm.c:92). -/
def smulBlm? (env : BlmEnv) (fuel : Nat) (s : SObjs) (c : Out) (a b : Nat) : Option SObjs :=
  if (s a).ncols ≠ (s b).nrows ∨ (s a).fid ≠ (s b).fid then none
  else match c with
    | .null k =>
      let s := soutput s c (s a) (s a).nrows (s b).ncols
      (mzdSliceMulBlmRaw? env fuel (s k) (s a) (s b) none).map (supd s k)
    | .given k =>
      if (s k).fid ≠ (s a).fid ∨ (s k).nrows ≠ (s a).nrows ∨ (s k).ncols ≠ (s b).ncols then none
      else
        let s := supd s k (mzdSliceSetUi (s k) 0#64)
        (mzdSliceMulBlmRaw? env fuel (s k) (s a) (s b) none).map (supd s k)

/-- mzd_slice.h:768-778 `mzd_slice_addmul_blm(C,A,B,NULL)`: the product goes to a new matrix, which is then added. -/
def saddmulBlm? (env : BlmEnv) (fuel : Nat) (s : SObjs) (c a b : Nat) : Option SObjs :=
  if (s a).ncols ≠ (s b).nrows ∨ (s a).fid ≠ (s b).fid then none
  else if (s c).fid ≠ (s a).fid ∨ (s c).nrows ≠ (s a).nrows ∨ (s c).ncols ≠ (s b).ncols then none
  else (mzdSliceMulBlmRaw? env fuel (mzdSliceInit (s a).ff (s a).fid (s a).nrows (s b).ncols) (s a) (s b) none).bind fun T =>
    (mzdSliceAdd? (s c) (s c) T).map (supd s c)

end M4rie.SStore
