import Verif.Model.Cost
import Verif.Model.MzdPoly

/-!
# Multiplication through bilinear maps and of polynomials, with a log of the products

As Model/Cost, for the code of Model/Blm and Model/MzdPoly.
-/

namespace M4rie
open Spec

/-! ### blm.c, mzd_slice.h, conversion.h -/

/-- blm.c:6-41 `_mzd_ptr_apply_blm_mzd(X,A,B,f)`. -/
def ptrApplyBlmMzdL (f : Blm) (m k n : Nat) (X A B : Nat → Nat → Nat → Word) : Logged (Nat → Nat → Nat → Word) :=
  if ¬ (f.H.ncols = f.F.nrows ∧ f.F.nrows = f.G.nrows) then quietly none else
  forNL (fun i X => do
    let t0 := mzdMul m k n zeroW (blmSelect f.F i m k A) (blmSelect f.G i k n B)
    logProduct (.gf2 m k n)
    quietly (forNM (fun j X => if bitAt f.H.w j i then ptrAddModred none m n t0 X j else some X) f.H.nrows X)) f.F.nrows X

/-- blm.c:65-101 `_mzd_ptr_apply_blm_djb(X,A,B,f)`; the loop over the products blm.c:82-87, whose results are a function of the index. -/
def ptrApplyBlmDjbL (f : Blm) (pf pg ph : List DjbOp) (m k n : Nat) (X A B : Nat → Nat → Nat → Word) : Logged (Nat → Nat → Nat → Word) :=
  if ¬ (f.H.ncols = f.F.nrows ∧ f.F.nrows = f.G.nrows) then quietly none else do
  let t1 := djbApplyPtr m k pf (fun _ => zeroW) A
  let t2 := djbApplyPtr k n pg (fun _ => zeroW) B
  let t0 := fun i => mzdMul m k n zeroW (t1 i) (t2 i)
  forNL (fun _ _ => logProduct (.gf2 m k n)) f.F.nrows ()
  pure (djbApplyPtr m n ph X t0)

/-- blm.h:153-158 `_mzd_ptr_apply_blm(X,A,B,f)`. -/
def ptrApplyBlmL (f : Blm) (m k n : Nat) (X A B : Nat → Nat → Nat → Word) : Logged (Nat → Nat → Nat → Word) :=
  match f.djb with
  | some (pf, pg, ph) => ptrApplyBlmDjbL f pf pg ph m k n X A B
  | none => ptrApplyBlmMzdL f m k n X A B

/-- mzd_slice.h:706-729 `_mzd_slice_mul_blm(C,A,B,f)`. -/
def mzdSliceMulBlmRawL (env : BlmEnv) (fuel : Nat) (C A B : Slice) (f : Option Blm) : Logged Slice := do
  let f ← quietly (match f with
    | some f => some f
    | none => if C.ff.degree > 16 then none else blmInitCrt? env fuel (some C.ff) C.ff.degree C.ff.degree (crtSingle C.ff.degree) true)
  let x ← ptrApplyBlmL f A.nrows A.ncols B.ncols C.x A.x B.x
  pure { C with x := x }

/-- mzd_slice.h:744-753 `mzd_slice_mul_blm(C,A,B,f)`, `C != NULL`. -/
def mzdSliceMulBlmL (env : BlmEnv) (fuel : Nat) (C A B : Slice) (f : Option Blm) : Logged Slice :=
  if A.ncols ≠ B.nrows ∨ A.fid ≠ B.fid then quietly none else
  if C.fid ≠ A.fid ∨ C.nrows ≠ A.nrows ∨ C.ncols ≠ B.ncols then quietly none else
  mzdSliceMulBlmRawL env fuel (mzdSliceSetUi C 0#64) A B f

/-- mzd_slice.h:768-778 `mzd_slice_addmul_blm(C,A,B,f)`. -/
def mzdSliceAddmulBlmL (env : BlmEnv) (fuel : Nat) (C A B : Slice) (f : Option Blm) : Logged Slice :=
  if A.ncols ≠ B.nrows ∨ A.fid ≠ B.fid then quietly none else
  if C.fid ≠ A.fid ∨ C.nrows ≠ A.nrows ∨ C.ncols ≠ B.ncols then quietly none else do
  let T ← mzdSliceMulBlmRawL env fuel (mzdSliceInit A.ff A.fid A.nrows B.ncols) A B f
  quietly (mzdSliceAdd? C C T)

/-- conversion.h:215-234 `_mzed_addmul_blm(C,A,B)`, `C != NULL`. -/
def mzedAddmulBlmRawL (env : BlmEnv) (fuel : Nat) (C A B : Mzed) : Logged Mzed := do
  let As ← quietly (mzedSliceNew? A)
  let Bs ← quietly (mzedSliceNew? B)
  let Ts ← mzdSliceMulBlmRawL env fuel (mzdSliceInit As.ff As.fid As.nrows Bs.ncols) As Bs none
  let T ← quietly (mzedClingNew? Ts)
  quietly (mzedAdd? C C T)

/-- conversion.h:246-255 `mzed_mul_blm(C,A,B)`, `C != NULL`. -/
def mzedMulBlmL (env : BlmEnv) (fuel : Nat) (C A B : Mzed) : Logged Mzed :=
  if A.ncols ≠ B.nrows ∨ A.fid ≠ B.fid then quietly none else
  if C.fid ≠ A.fid ∨ C.nrows ≠ A.nrows ∨ C.ncols ≠ B.ncols then quietly none else
  mzedAddmulBlmRawL env fuel (mzedSetUi C 0#64) A B

/-- conversion.h:265-272 `mzed_addmul_blm(C,A,B)`. -/
def mzedAddmulBlmL (env : BlmEnv) (fuel : Nat) (C A B : Mzed) : Logged Mzed :=
  if A.ncols ≠ B.nrows ∨ A.fid ≠ B.fid then quietly none else
  if C.fid ≠ A.fid ∨ C.nrows ≠ A.nrows ∨ C.ncols ≠ B.ncols then quietly none else
  mzedAddmulBlmRawL env fuel C A B

/-! ### mzd_poly.h, mzd_poly.c -/

/-- mzd_poly.h:152-162 `_mzd_poly_addmul_naive(C,A,B)`, `C != NULL`. -/
def mzdPolyAddmulNaiveL (C A B : MzdPoly) : Logged MzdPoly := do
  let x ← forNL (fun i x => forNL (fun j x =>
    if i + j < C.depth ∧ PolyFits C A B then do
      logProduct (.gf2 A.nrows A.ncols B.ncols)
      pure (setSlice x (i + j) (mzdAddmul A.nrows A.ncols B.ncols (x (i + j)) (A.x i) (B.x j)))
    else quietly none) B.depth x) A.depth C.x
  pure { C with x := x }

/-- mzd_poly.h:175-203 `_mzd_poly_addmul_karatsubs_balanced(C,A,B)`, `C != NULL`. -/
def mzdPolyAddmulKaraL (C A B : MzdPoly) : Logged MzdPoly :=
  if A.depth ≠ B.depth then quietly none else
  if A.depth = 0 ∨ 16 < A.depth then quietly none else
  if ¬ (PolyFits C A B ∧ 2 * A.depth - 1 ≤ C.depth) then quietly none else
  if A.depth = 1 then do
    logProduct (.gf2 A.nrows A.ncols B.ncols)
    pure { C with x := setSlice C.x 0 (mzdAddmul A.nrows A.ncols B.ncols (C.x 0) (A.x 0) (B.x 0)) }
  else do
    let x ← ptrAddmulKaratsubaL A.depth none A.nrows A.ncols B.ncols C.x A.x B.x
    pure { C with x := x }

/-- mzd_poly.h:209-218 `_mzd_poly_addmul_blm(C,A,B,f)`, `C != NULL`. -/
def mzdPolyAddmulBlmL (C A B : MzdPoly) (f : Blm) : Logged MzdPoly :=
  if ¬ (f.F.ncols = A.depth ∧ f.G.ncols = B.depth) then quietly none else
  if ¬ (PolyFits C A B ∧ f.H.nrows ≤ C.depth) then quietly none else do
  let x ← ptrApplyBlmL f A.nrows A.ncols B.ncols C.x A.x B.x
  pure { C with x := x }

/-- mzd_poly.h:225-232 `_mzd_poly_addmul_crt(C,A,B)`, as `mzdPolyAddmulCrt?`. -/
def mzdPolyAddmulCrtL (env : BlmEnv) (fuel : Nat) (C : Option MzdPoly) (A B : MzdPoly) : Logged (Option MzdPoly) := do
  let p ← quietly (crtInit? A.depth B.depth)
  let f ← quietly (blmInitCrt? env fuel none A.depth B.depth p true)
  match C with
  | some C => do
    let C ← mzdPolyAddmulBlmL C A B f
    pure (some C)
  | none => do
    let _ ← mzdPolyAddmulBlmL (mzdPolyInit (A.depth + B.depth - 1) A.nrows B.ncols) A B f
    pure none

/-- mzd_slice.h:661-670 `mzd_slice_mul_karatsuba(NULL,A,B)` (also `mzd_slice_mul`). -/
def mzdSliceMulKaratsubaNewL (A B : Slice) : Logged Slice :=
  if A.ncols ≠ B.nrows ∨ A.fid ≠ B.fid then quietly none
  else mzdSliceAddmulKaraL (mzdSliceInit A.ff A.fid A.nrows B.ncols) A B

/-- mzd_poly.c:45-57: one iteration of the loop over `i`; the state is `(Phi,a,b,c)`. -/
def ext1EvalL (A B : MzdPoly) (d i : Nat) (s : (Mzed × Slice × Slice) × (Nat → Slice)) : Logged ((Mzed × Slice × Slice) × (Nat → Slice)) := do
  let t ← quietly (forNM (ext1Step A B i) d ⟨s.1.1, mzdSliceSetUi s.1.2.1 0#64, mzdSliceSetUi s.1.2.2 0#64, 1#64⟩)
  let ci ← mzdSliceMulKaratsubaNewL t.a t.b
  pure ((t.Phi, t.a, t.b), fun k => if k = i then ci else s.2 k)

/-- mzd_poly.c:20-71, once the field `ff` has been created. -/
def ext1BodyL (cb : Codebook) (optK : Nat) (small : Bool) (ff : Gf2e) (fid : Nat) (C A B : MzdPoly) (d : Nat) : Logged MzdPoly := do
  let a := mzdSliceInit ff fid A.nrows A.ncols
  let b := mzdSliceInit ff fid B.nrows B.ncols
  let Phi := mzedWriteElem (mzedInit ff fid d d) 0 0 1#64
  let c0 := mzdSliceInit ff fid A.nrows B.ncols
  let c0 := { c0 with x := setSlice c0.x 0 (mzdMul A.nrows A.ncols B.ncols (c0.x 0) (A.x 0) (B.x 0)) }
  logProduct (.gf2 A.nrows A.ncols B.ncols)
  let Phi := forN (fun i Phi => mzedWriteElem Phi 1 i 1#64) d Phi
  let a := { a with x := forN (fun i x => setSlice x 0 (mzdAdd A.nrows A.ncols (x 0) (x 0) (A.x i))) A.depth a.x }
  let b := { b with x := forN (fun i x => setSlice x 0 (mzdAdd B.nrows B.ncols (x 0) (x 0) (B.x i))) B.depth b.x }
  let c1 := mzdSliceInit ff fid A.nrows B.ncols
  let c1 := { c1 with x := setSlice c1.x 0 (mzdMul A.nrows A.ncols B.ncols (c1.x 0) (a.x 0) (b.x 0)) }
  logProduct (.gf2 A.nrows A.ncols B.ncols)
  let s ← forNL (fun i s => ext1EvalL A B d (i + 2) s) (d - 2) ((Phi, a, b), fun k => if k = 0 then c0 else c1)
  let Rho ← quietly (mzedInvertNewtonJohn? cb optK small s.1.1)
  let s ← quietly (ext1Interp Rho s.2 A.nrows B.ncols d (mzdSliceInit ff fid A.nrows B.ncols, C.x))
  pure { C with x := s.2 }

/-- mzd_poly.c:12-79 `_mzd_poly_addmul_ext1(C,A,B)`. -/
def mzdPolyAddmulExt1L (cb : Codebook) (optK : Nat) (small : Bool) (fid : Nat) (C A B : MzdPoly) : Logged MzdPoly :=
  if A.depth = 0 ∨ B.depth = 0 then quietly none else
  let d := A.depth + B.depth - 1
  if ¬ (PolyFits C A B ∧ d ≤ C.depth) then quietly none else
  if 16 < Nat.clog 2 d then quietly none else do
  let n ← quietly (irredTable (Nat.clog 2 d))[0]?
  let ff ← quietly (gf2eInit (BitVec.ofNat 64 n))
  if (degreeToW? ff.degree).isNone then quietly none else ext1BodyL cb optK small ff fid C A B d

end M4rie
