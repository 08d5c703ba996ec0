import Verif.Model.Blm
import Verif.Model.NjEchelon
import Mathlib.Data.Nat.Log

/-!
# Matrices over GF(2)[x]: mzd_poly.h, mzd_poly.c

`Option` results: `none` models `m4ri_die`, a failing assertion, an access to a coefficient that does not exist, or an endless loop
in `blm_init_crt`.  `C`, `A` and `B` are assumed not to share memory unless stated otherwise.
-/

namespace M4rie

/-- mzd_poly.h:40-45 `mzd_poly_t`.  `cap` is the number of pointers allocated for `x` by `mzd_poly_init`; the coefficients `x k`
with `k ≥ depth` do not exist. -/
structure MzdPoly where
  nrows : Nat
  ncols : Nat
  depth : Nat
  cap : Nat
  x : Nat → Nat → Nat → Word

/-- mzd_poly.h:90-101 `mzd_poly_init(d,m,n)`. -/
def mzdPolyInit (d m n : Nat) : MzdPoly := ⟨m, n, d + 1, d + 1, fun _ => zeroW⟩

/-- mzd_poly.h:127-140 `_mzd_poly_adapt_depth(A,new_depth)`: freeing, or allocating zero matrices; `none`: a pointer is written behind
the end of the array `x`. -/
def mzdPolyAdaptDepth? (A : MzdPoly) (newDepth : Nat) : Option MzdPoly :=
  if newDepth < A.depth then some { A with depth := newDepth }
  else forNM (fun i (B : MzdPoly) => if A.depth + i < B.cap then some { B with x := setSlice B.x (A.depth + i) zeroW } else none)
      (newDepth - A.depth) A |>.map fun B => { B with depth := newDepth }

/-- the checks of M4RI `mzd_add(C,A,B)`; here also that the polynomials have the coefficients that are accessed -/
def polyAddOk (C A B : MzdPoly) (offset : Nat) : Bool :=
  decide (offset + A.depth ≤ C.depth ∧ A.depth ≤ B.depth) &&
    (A.depth == 0 || decide (A.nrows = B.nrows ∧ A.ncols = B.ncols ∧ C.nrows = A.nrows ∧ C.ncols = A.ncols))

/-- mzd_poly.h:60-63 `_mzd_poly_add(C,A,B,offset)`. -/
def mzdPolyAddOff? (C A B : MzdPoly) (offset : Nat) : Option MzdPoly :=
  if polyAddOk C A B offset then
    some { C with x := fun k => if offset ≤ k then ptrAdd A.nrows A.ncols (fun k => C.x (offset + k)) A.x B.x A.depth (k - offset) else C.x k }
  else none

/-- mzd_poly.h:75-78 `mzd_poly_add(C,A,B)`. -/
def mzdPolyAdd? (C A B : MzdPoly) : Option MzdPoly :=
  if A.depth ≤ C.depth ∧ A.depth = B.depth then mzdPolyAddOff? C A B 0 else none

/-- the checks of M4RI `mzd_addmul`/`mzd_mul` on the coefficients -/
def PolyFits (C A B : MzdPoly) : Prop := A.ncols = B.nrows ∧ C.nrows = A.nrows ∧ C.ncols = B.ncols

instance (C A B : MzdPoly) : Decidable (PolyFits C A B) := by unfold PolyFits; infer_instance

/-- mzd_poly.h:152-162 `_mzd_poly_addmul_naive(C,A,B)`, `C != NULL`. -/
def mzdPolyAddmulNaive? (C A B : MzdPoly) : Option MzdPoly :=
  (forNM (fun i x => forNM (fun j x =>
    if i + j < C.depth ∧ PolyFits C A B then some (setSlice x (i + j) (mzdAddmul A.nrows A.ncols B.ncols (x (i + j)) (A.x i) (B.x j)))
    else none) B.depth x) A.depth C.x).map fun x => { C with x := x }

/-- mzd_poly.h:152-162 `_mzd_poly_addmul_naive(NULL,A,B)`. -/
def mzdPolyAddmulNaiveNew? (A B : MzdPoly) : Option MzdPoly :=
  mzdPolyAddmulNaive? (mzdPolyInit (A.depth + B.depth - 1) A.nrows B.ncols) A B

/-- mzd_poly.h:175-203 `_mzd_poly_addmul_karatsubs_balanced(C,A,B)`, `C != NULL`.  The routines for depth `d` access `C->x[0..2d-2]`. -/
def mzdPolyAddmulKara? (C A B : MzdPoly) : Option MzdPoly :=
  if A.depth ≠ B.depth then none else
  if A.depth = 0 ∨ 16 < A.depth then none else
  if ¬ (PolyFits C A B ∧ 2 * A.depth - 1 ≤ C.depth) then none else
  if A.depth = 1 then some { C with x := setSlice C.x 0 (mzdAddmul A.nrows A.ncols B.ncols (C.x 0) (A.x 0) (B.x 0)) }
  else (ptrAddmulKaratsuba? A.depth none A.nrows A.ncols B.ncols C.x A.x B.x).map fun x => { C with x := x }

/-- mzd_poly.h:175-203 `_mzd_poly_addmul_karatsubs_balanced(NULL,A,B)`. -/
def mzdPolyAddmulKaraNew? (A B : MzdPoly) : Option MzdPoly :=
  mzdPolyAddmulKara? (mzdPolyInit (A.depth + B.depth - 1) A.nrows B.ncols) A B

/-- mzd_poly.h:209-218 `_mzd_poly_addmul_blm(C,A,B,f)`, `C != NULL`; `C->x[0..f->H->nrows-1]` are accessed. -/
def mzdPolyAddmulBlm? (C A B : MzdPoly) (f : Blm) : Option MzdPoly :=
  if ¬ (f.F.ncols = A.depth ∧ f.G.ncols = B.depth) then none else
  if ¬ (PolyFits C A B ∧ f.H.nrows ≤ C.depth) then none else
  (ptrApplyBlm? f A.nrows A.ncols B.ncols C.x A.x B.x).map fun x => { C with x := x }

/-- mzd_poly.h:225-232 `_mzd_poly_addmul_crt(C,A,B)`: the returned pointer (`none` is `NULL`).  For `C == NULL` the product is
computed into a matrix that is lost. -/
def mzdPolyAddmulCrt? (env : BlmEnv) (fuel : Nat) (C : Option MzdPoly) (A B : MzdPoly) : Option (Option MzdPoly) :=
  (crtInit? A.depth B.depth).bind fun p =>
  (blmInitCrt? env fuel none A.depth B.depth p true).bind fun f =>
  match C with
  | some C => (mzdPolyAddmulBlm? C A B f).map some
  | none => (mzdPolyAddmulBlm? (mzdPolyInit (A.depth + B.depth - 1) A.nrows B.ncols) A B f).map fun _ => none

/-! ### evaluation and interpolation -/

/-- mzd_poly.c:5-10 `mzd_slice_addmul_mzd(C,a,A)`. -/
def mzdSliceAddmulMzd (C : Slice) (a : Word) (A : Nat → Nat → Word) : Slice :=
  { C with x := forN (fun i x => if a &&& twoPow i ≠ 0#64 then setSlice x i (mzdAdd C.nrows C.ncols (x i) (x i) A) else x) C.depth C.x }

/-- the variables of the loop mzd_poly.c:50-55 -/
structure Ext1State where
  Phi : Mzed
  a : Slice
  b : Slice
  acc : Word

/-- mzd_poly.c:51-54: one iteration of the inner loop, `alpha = i`. -/
def ext1Step (A B : MzdPoly) (i j : Nat) (s : Ext1State) : Option Ext1State :=
  (gf2eMul? s.a.ff (BitVec.ofNat 64 i) s.acc).map fun acc =>
    { Phi := mzedWriteElem s.Phi i j s.acc
      a := if j < A.depth then mzdSliceAddmulMzd s.a s.acc (A.x j) else s.a
      b := if j < B.depth then mzdSliceAddmulMzd s.b s.acc (B.x j) else s.b
      acc := acc }

/-- mzd_poly.c:45-57: one iteration of the loop over `i`; the state is `(Phi,a,b,c)`. -/
def ext1Eval (A B : MzdPoly) (d i : Nat) (s : (Mzed × Slice × Slice) × (Nat → Slice)) : Option ((Mzed × Slice × Slice) × (Nat → Slice)) :=
  (forNM (ext1Step A B i) d ⟨s.1.1, mzdSliceSetUi s.1.2.1 0#64, mzdSliceSetUi s.1.2.2 0#64, 1#64⟩).bind fun t =>
  (mzdSliceMulKaratsubaNew? t.a t.b).map fun ci => ((t.Phi, t.a, t.b), fun k => if k = i then ci else s.2 k)

/-- mzd_poly.c:63-68: the state is `(tmp,C)`. -/
def ext1Interp (Rho : Mzed) (c : Nat → Slice) (m n d : Nat) (s : Slice × (Nat → Nat → Nat → Word)) : Option (Slice × (Nat → Nat → Nat → Word)) :=
  forNM (fun i s => forNM (fun j (s : Slice × (Nat → Nat → Nat → Word)) =>
    (mzdSliceMulScalar? s.1 (mzedReadElem Rho i j) (c j)).map fun tmp =>
      (tmp, setSlice s.2 i (mzdAdd m n (s.2 i) (s.2 i) (tmp.x 0)))) d s) d s

/-- mzd_poly.c:20-71, once the field `ff` has been created; `d = A->depth + B->depth - 1 ≥ 2`. -/
def ext1Body (cb : Codebook) (optK : Nat) (small : Bool) (ff : Gf2e) (fid : Nat) (C A B : MzdPoly) (d : Nat) : Option MzdPoly :=
  let a := mzdSliceInit ff fid A.nrows A.ncols
  let b := mzdSliceInit ff fid B.nrows B.ncols
  let Phi := mzedWriteElem (mzedInit ff fid d d) 0 0 1#64
  let c0 := mzdSliceInit ff fid A.nrows B.ncols
  let c0 := { c0 with x := setSlice c0.x 0 (mzdMul A.nrows A.ncols B.ncols (c0.x 0) (A.x 0) (B.x 0)) }
  let Phi := forN (fun i Phi => mzedWriteElem Phi 1 i 1#64) d Phi
  let a := { a with x := forN (fun i x => setSlice x 0 (mzdAdd A.nrows A.ncols (x 0) (x 0) (A.x i))) A.depth a.x }
  let b := { b with x := forN (fun i x => setSlice x 0 (mzdAdd B.nrows B.ncols (x 0) (x 0) (B.x i))) B.depth b.x }
  let c1 := mzdSliceInit ff fid A.nrows B.ncols
  let c1 := { c1 with x := setSlice c1.x 0 (mzdMul A.nrows A.ncols B.ncols (c1.x 0) (a.x 0) (b.x 0)) }
  (forNM (fun i s => ext1Eval A B d (i + 2) s) (d - 2) ((Phi, a, b), fun k => if k = 0 then c0 else c1)).bind fun s =>
  (mzedInvertNewtonJohn? cb optK small s.1.1).bind fun Rho =>
  (ext1Interp Rho s.2 A.nrows B.ncols d (mzdSliceInit ff fid A.nrows B.ncols, C.x)).map fun s => { C with x := s.2 }

/-- mzd_poly.c:12-79 `_mzd_poly_addmul_ext1(C,A,B)`.  `(int)ceil(log2((double)d))` is computed exactly; `fid` is the address of the new
field object.  `none` for `d = 1`: `irreducible_polynomials[0]` is `NULL`; for `d = 2`: `mzed_init` dies for fields of degree 1. -/
def mzdPolyAddmulExt1? (cb : Codebook) (optK : Nat) (small : Bool) (fid : Nat) (C A B : MzdPoly) : Option MzdPoly :=
  if A.depth = 0 ∨ B.depth = 0 then none else
  let d := A.depth + B.depth - 1
  if ¬ (PolyFits C A B ∧ d ≤ C.depth) then none else
  if 16 < Nat.clog 2 d then none else
  (irredTable (Nat.clog 2 d))[0]?.bind fun n => (gf2eInit (BitVec.ofNat 64 n)).bind fun ff =>
    if (degreeToW? ff.degree).isNone then none else ext1Body cb optK small ff fid C A B d

/-! ### comparison -/

/-- mzd_poly.h:252-263 `mzd_poly_cmp(A,B)`; `cmp` is M4RI's `mzd_cmp` on coefficients of the given dimensions. -/
def mzdPolyCmp (cmp : (Nat × Nat) × (Nat → Nat → Word) → (Nat × Nat) × (Nat → Nat → Word) → BitVec 32) (A B : MzdPoly) : BitVec 32 :=
  if A.depth ≠ B.depth then (if A.depth < B.depth then -1#32 else 1#32)
  else forN (fun i r => r ||| cmp ((A.nrows, A.ncols), A.x i) ((B.nrows, B.ncols), B.x i)) A.depth 0#32

end M4rie
