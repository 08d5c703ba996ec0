import Verif.Model.PleRec
import Verif.Model.MzdPoly

/-! # Entry points with default arguments, change of depth, randomisation -/

namespace M4rie

/-- the environment of the PLE routines with the cutoff they are called with (ple.c:75-78, 93-96): `l2` is the size of the second level
cache the library was configured with, `compress` M4RI's `_mzd_compress_l`. -/
def pleEnvOf (cb : Codebook) (compress : Nat → Nat → (Nat → Nat → Word) → Nat → Nat → Nat → Nat → Nat → Word) (ff : Gf2e) (l2 : Nat)
    (cutoff : Int) : PleEnv := ⟨cb, pleSmall (degreeToW ff.degree) l2 cutoff, compress⟩

/-- ple.h:104-108 `mzd_slice_ple(A,P,Q)`; `none` also models the failed assertions on the lengths of the permutations. -/
def mzdSlicePleTop? (cb : Codebook) (compress : Nat → Nat → (Nat → Nat → Word) → Nat → Nat → Nat → Nat → Nat → Word) (l2 : Nat)
    (A : Slice) (P Q : Mzp) : Option (Slice × Mzp × Mzp × Nat) :=
  if P.length = A.nrows ∧ Q.length = A.ncols then
    (mzdSlicePle? (pleEnvOf cb compress A.ff l2 0) A P.val Q.val).map fun p => (p.1, ⟨P.length, p.2.1⟩, ⟨Q.length, p.2.2.1⟩, p.2.2.2)
  else none

/-- ple.h:141-145 `mzd_slice_pluq(A,P,Q)`. -/
def mzdSlicePluqTop? (cb : Codebook) (compress : Nat → Nat → (Nat → Nat → Word) → Nat → Nat → Nat → Nat → Nat → Word) (l2 : Nat)
    (A : Slice) (P Q : Mzp) : Option (Slice × Mzp × Mzp × Nat) :=
  if P.length = A.nrows ∧ Q.length = A.ncols then
    (mzdSlicePluq? (pleEnvOf cb compress A.ff l2 0) A P.val Q.val).map fun p => (p.1, ⟨P.length, p.2.1⟩, ⟨Q.length, p.2.2.1⟩, p.2.2.2)
  else none

/-- ple.h:203-205 `mzed_ple(A,P,Q)` (ple.h: `__M4RIE_PLE_CUTOFF` is `4*L2`).  There is no assertion here; the permutations are assumed to
have the documented lengths. -/
def mzedPleTop? (cb : Codebook) (compress : Nat → Nat → (Nat → Nat → Word) → Nat → Nat → Nat → Nat → Nat → Word) (l2 : Nat)
    (A : Mzed) (P Q : Nat → Nat) : Option (Mzed × (Nat → Nat) × (Nat → Nat) × Nat) :=
  mzedPle? (pleEnvOf cb compress A.ff l2 ((l2 * 4 : Nat) : Int)) A P Q

/-- trsm.h:139-141 `mzed_trsm_lower_left(L,B)`. -/
def mzedTrsmLowerLeftTop? (env : MulEnv) (L B : Mzed) : Option Mzed := mzedTrsmLowerLeft? env L B mzedTrsmCutoff

/-- trsm.h:67-69 `mzed_trsm_upper_left(U,B)`. -/
def mzedTrsmUpperLeftTop? (env : MulEnv) (U B : Mzed) : Option Mzed := mzedTrsmUpperLeft? env U B mzedTrsmCutoff

/-- trsm.h:175-177 `mzd_slice_trsm_lower_left(L,B)`. -/
def mzdSliceTrsmLowerLeftTop? (cb : Codebook) (L B : Slice) : Option Slice := mzdSliceTrsmLowerLeft? cb L B mzedTrsmCutoff

/-- trsm.h:103-105 `mzd_slice_trsm_upper_left(U,B)`. -/
def mzdSliceTrsmUpperLeftTop? (cb : Codebook) (U B : Slice) : Option Slice := mzdSliceTrsmUpperLeft? cb U B mzedTrsmCutoff

/-- mzd_slice.h:119-135 `_mzd_slice_adapt_depth(A,new_depth)`.  The array `x` has 16 entries (mzd_slice.h:52); slices that do not exist are
carried as zero.  `none`: the assertion fails, or a pointer is stored past the end of the array. -/
def mzdSliceAdaptDepth? (A : Slice) (newDepth : Nat) : Option Slice :=
  if ¬ A.ff.degree ≤ newDepth then none
  else if newDepth < A.depth then
    some { A with depth := newDepth, x := fun k => if newDepth ≤ k ∧ k < A.depth then fun _ _ => 0#64 else A.x k }
  else if 16 < newDepth ∧ A.depth < newDepth then none
  else some { A with depth := newDepth, x := fun k => if A.depth ≤ k ∧ k < newDepth then fun _ _ => 0#64 else A.x k }

/-- M4RI `mzd_randomize(A)` (contract): every bit of the matrix becomes the next bit of the source, here `rnd`; nothing else changes. -/
def mzdRandomize (nr nc : Nat) (A : Nat → Nat → Word) (rnd : Nat → Nat → Bool) : Nat → Nat → Word :=
  ofBits fun i p => if i < nr ∧ p < nc then rnd i p else bitAt A i p

/-- mzd_slice.h:848-851 `mzd_slice_randomize(A)`. -/
def mzdSliceRandomize (A : Slice) (rnd : Nat → Nat → Nat → Bool) : Slice :=
  { A with x := forN (fun k x => setSlice x k (mzdRandomize A.nrows A.ncols (x k) (rnd k))) A.depth A.x }

/-- mzd_poly.h:275-278 `mzd_poly_randomize(A)`. -/
def mzdPolyRandomize (A : MzdPoly) (rnd : Nat → Nat → Nat → Bool) : MzdPoly :=
  { A with x := forN (fun k x => setSlice x k (mzdRandomize A.nrows A.ncols (x k) (rnd k))) A.depth A.x }

end M4rie
