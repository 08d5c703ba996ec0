import Verif.Model.SliceOps

/-! # Permutations -/

namespace M4rie

/-- M4RI `mzp_t`: a sequence of transpositions, swap `i` and `values[i]`. -/
structure Mzp where
  length : Nat
  val : Nat → Nat

/-- M4RI `mzp_init(n)`: the identity. -/
def mzpInit (n : Nat) : Mzp := ⟨n, fun i => i⟩

/-- M4RI `mzd_apply_p_left(A,P)` (contract): row swaps walking from 0 to length-1. -/
def mzdApplyPLeft (nr nc : Nat) (M : Nat → Nat → Word) (P : Mzp) : Nat → Nat → Word :=
  forN (fun i M => mzdRowSwap nc M i (P.val i)) (min P.length nr) M

/-- M4RI `mzd_apply_p_left_trans(A,P)` (contract): row swaps walking from length-1 to 0. -/
def mzdApplyPLeftTrans (nr nc : Nat) (M : Nat → Nat → Word) (P : Mzp) : Nat → Nat → Word :=
  let n := min P.length nr
  forN (fun t M => mzdRowSwap nc M (n - 1 - t) (P.val (n - 1 - t))) n M

/-- M4RI `mzd_apply_p_right(A,P)` (contract): column swaps walking from length-1 to 0. -/
def mzdApplyPRight (nr nc : Nat) (M : Nat → Nat → Word) (P : Mzp) : Nat → Nat → Word :=
  let n := min P.length nc
  forN (fun t M => mzdColSwap nr M (n - 1 - t) (P.val (n - 1 - t))) n M

/-- M4RI `mzd_apply_p_right_trans(A,P)` (contract): column swaps walking from 0 to length-1. -/
def mzdApplyPRightTrans (nr nc : Nat) (M : Nat → Nat → Word) (P : Mzp) : Nat → Nat → Word :=
  forN (fun i M => mzdColSwap nr M i (P.val i)) (min P.length nc) M

/-- M4RI `mzd_apply_p_right_trans_tri(A,P)` (contract, `P->length == A->ncols`): column `c` is swapped with `P[c]` in the rows above `c`. -/
def mzdApplyPRightTransTri (nr nc : Nat) (M : Nat → Nat → Word) (P : Mzp) : Nat → Nat → Word :=
  forN (fun c M => mzdColSwapInRows M c (P.val c) 0 (min c nr)) nc M

/-- permutation.h:43-45 `mzed_apply_p_left(A,P)`. -/
def mzedApplyPLeft (A : Mzed) (P : Mzp) : Mzed := { A with words := mzdApplyPLeft A.nrows A.bitCols A.words P }

/-- permutation.h:56-58 `mzed_apply_p_left_trans(A,P)`. -/
def mzedApplyPLeftTrans (A : Mzed) (P : Mzp) : Mzed := { A with words := mzdApplyPLeftTrans A.nrows A.bitCols A.words P }

/-- permutation.h:69-76 `mzed_apply_p_right(A,P)`. -/
def mzedApplyPRight (A : Mzed) (P : Mzp) : Mzed :=
  if A.nrows = 0 then A
  else
    let n := min P.length A.ncols
    forN (fun t A => mzedColSwap A (n - 1 - t) (P.val (n - 1 - t))) n A

/-- permutation.h:87-94 `mzed_apply_p_right_trans(A,P)`. -/
def mzedApplyPRightTrans (A : Mzed) (P : Mzp) : Mzed :=
  if A.nrows = 0 then A
  else forN (fun i A => mzedColSwap A i (P.val i)) (min P.length A.ncols) A

/-- permutation.h:105-109 `mzd_slice_apply_p_left(A,P)`. -/
def mzdSliceApplyPLeft (A : Slice) (P : Mzp) : Slice :=
  { A with x := fun k => if k < A.depth then mzdApplyPLeft A.nrows A.ncols (A.x k) P else A.x k }

/-- permutation.h:120-124 `mzd_slice_apply_p_left_trans(A,P)`. -/
def mzdSliceApplyPLeftTrans (A : Slice) (P : Mzp) : Slice :=
  { A with x := fun k => if k < A.depth then mzdApplyPLeftTrans A.nrows A.ncols (A.x k) P else A.x k }

/-- permutation.h:135-139 `mzd_slice_apply_p_right(A,P)`. -/
def mzdSliceApplyPRight (A : Slice) (P : Mzp) : Slice :=
  { A with x := fun k => if k < A.depth then mzdApplyPRight A.nrows A.ncols (A.x k) P else A.x k }

/-- permutation.h:150-154 `mzd_slice_apply_p_right_trans(A,P)`. -/
def mzdSliceApplyPRightTrans (A : Slice) (P : Mzp) : Slice :=
  { A with x := fun k => if k < A.depth then mzdApplyPRightTrans A.nrows A.ncols (A.x k) P else A.x k }

/-- permutation.h:167-171 `mzd_slice_apply_p_right_trans_tri(A,P)`. -/
def mzdSliceApplyPRightTransTri (A : Slice) (P : Mzp) : Slice :=
  { A with x := fun k => if k < A.depth then mzdApplyPRightTransTri A.nrows A.ncols (A.x k) P else A.x k }

end M4rie
