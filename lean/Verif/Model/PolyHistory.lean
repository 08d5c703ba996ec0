import Verif.Model.Entry
import Verif.Spec.PolyHistory

/-!
# Sequences of calls on matrices over GF(2)[x] (mzd_poly.h, mzd_poly.c)

The state is the contents of the variables of the program; `none` as result models that a call dies, accesses memory out of bounds or (for a variable
that holds nothing) an uninitialised pointer.
-/

namespace M4rie
open M4rie.Spec

/-- the variables of a program -/
abbrev PolyPool := Nat → Option MzdPoly

/-- assignment to a variable -/
def PolyPool.set (c : PolyPool) (d : Nat) (o : Option MzdPoly) : PolyPool := fun k => if k = d then o else c k

/-- the parts of M4RI used, the address of the field object made by `_mzd_poly_addmul_ext1` and the parameters of the inversion it calls -/
structure PolyLib where
  cb : Codebook
  optK : Nat
  small : Bool
  fid : Nat
  cmp : (Nat × Nat) × (Nat → Nat → Word) → (Nat × Nat) × (Nat → Nat → Word) → BitVec 32

/-- M4RI `mzd_write_bit(A->x[t],i,j,v)` -/
def mzdPolyWriteBit? (A : MzdPoly) (t i j : Nat) (v : Bool) : Option MzdPoly :=
  if t < A.depth ∧ i < A.nrows ∧ j < A.ncols then some { A with x := setSlice A.x t (mzdWriteBit (A.x t) i j v) } else none

/-- the index treated in step `i` of `_mzd_ptr_add` (mzd_ptr.h:83-123): downwards for at most 32 coefficients, upwards otherwise -/
def ptrAddOrder (length i : Nat) : Nat := if length ≤ 32 then length - 1 - i else i

/-- mzd_poly.h:60-63 `_mzd_poly_add(C,A,B,offset)` on the variables: `_mzd_ptr_add` (mzd_ptr.h:83-123) calls
`mzd_add(C->x[offset+k],A->x[k],B->x[k])` one after the other and reads what earlier calls have written if the objects are the same. -/
def polyAddLoop? (c : PolyPool) (d a b offset : Nat) : Option PolyPool :=
  (c a).bind fun A0 => forNM (fun i c =>
    let k := ptrAddOrder A0.depth i
    (c d).bind fun C => (c a).bind fun A => (c b).bind fun B =>
    if offset + k < C.depth ∧ k < A.depth ∧ k < B.depth ∧ A.nrows = B.nrows ∧ A.ncols = B.ncols ∧ C.nrows = A.nrows ∧ C.ncols = A.ncols then
      some (c.set d (some { C with x := setSlice C.x (offset + k) (mzdAdd A.nrows A.ncols (C.x (offset + k)) (A.x k) (B.x k)) }))
    else none) A0.depth c

/-- mzd_poly.h:75-78 `mzd_poly_add(C,A,B)` -/
def polyAdd? (c : PolyPool) (d a b : Nat) : Option PolyPool :=
  (c d).bind fun C => (c a).bind fun A => (c b).bind fun B => if A.depth ≤ C.depth ∧ A.depth = B.depth then polyAddLoop? c d a b 0 else none

/-- mzd_poly.h:152-203, mzd_poly.c:12-79: `_mzd_poly_addmul_naive`, `_mzd_poly_addmul_karatsubs_balanced`, `_mzd_poly_addmul_ext1` with a target that is no operand -/
def polyAddmulBy? (lib : PolyLib) : PolyAlg → MzdPoly → MzdPoly → MzdPoly → Option MzdPoly
  | .naive, C, A, B => mzdPolyAddmulNaive? C A B
  | .karatsuba, C, A, B => mzdPolyAddmulKara? C A B
  | .ext1, C, A, B => mzdPolyAddmulExt1? lib.cb lib.optK lib.small lib.fid C A B

/-- mzd_poly.h:152-203, mzd_poly.c:12-79 with `C == NULL`; `_mzd_poly_addmul_ext1` dereferences `C`. -/
def polyMulBy? : PolyAlg → MzdPoly → MzdPoly → Option MzdPoly
  | .naive, A, B => mzdPolyAddmulNaiveNew? A B
  | .karatsuba, A, B => mzdPolyAddmulKaraNew? A B
  | .ext1, _, _ => none

/-- one call (mzd_poly.h:60-278, mzd_poly.c:12-79).  Products into one of the operands are not modelled (`none`). -/
def polyCall (lib : PolyLib) (c : PolyPool) : PolyOp → Option (PolyPool × PolyOut)
  | .init d deg m n => some (c.set d (some (mzdPolyInit deg m n)), .unit)
  | .free d => (c d).map fun _ => (c.set d none, .unit)
  | .writeBit d t i j v => (c d).bind fun A => (mzdPolyWriteBit? A t i j v).map fun R => (c.set d (some R), .unit)
  | .readBit a t i j => (c a).bind fun A => if t < A.depth ∧ i < A.nrows ∧ j < A.ncols then some (c, .bit (bitAt (A.x t) i j)) else none
  | .randomize d r => (c d).map fun A => (c.set d (some (mzdPolyRandomize A r)), .unit)
  | .addOffset d a b off => (polyAddLoop? c d a b off).map fun c => (c, .unit)
  | .add d a b => (polyAdd? c d a b).map fun c => (c, .unit)
  | .adaptDepth d e => (c d).bind fun A => (mzdPolyAdaptDepth? A e).map fun R => (c.set d (some R), .unit)
  | .addmul alg d a b => if d = a ∨ d = b then none else
      (c d).bind fun C => (c a).bind fun A => (c b).bind fun B => (polyAddmulBy? lib alg C A B).map fun R => (c.set d (some R), .unit)
  | .mul alg d a b => (c a).bind fun A => (c b).bind fun B => (polyMulBy? alg A B).map fun R => (c.set d (some R), .unit)
  | .equal a b => (c a).bind fun A => (c b).map fun B => (c, .bit (decide (mzdPolyCmp lib.cmp A B = 0#32)))

/-- a sequence of calls of the functions of mzd_poly.h, one after the other -/
def polyRun (lib : PolyLib) : PolyPool → List PolyOp → Option (PolyPool × List PolyOut)
  | c, [] => some (c, [])
  | c, op :: ops => (polyCall lib c op).bind fun p => (polyRun lib p.1 ops).map fun q => (q.1, p.2 :: q.2)

end M4rie
