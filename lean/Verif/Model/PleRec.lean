import Verif.Model.Perm
import Verif.Model.Ple
import Verif.Model.TrsmRec
import Verif.Model.NjEchelon

/-! # Recursive PLE and PLUQ decomposition, elimination by PLE -/

namespace M4rie

/-- What the routines below use of M4RI and of the configuration: Newton-John tables, the comparison `w*ncols*nrows <= cutoff`
(`pleSmall` below; the theorems hold for every function in its place) and `_mzd_compress_l`. -/
structure PleEnv where
  cb : Codebook
  /-- arguments: rows, columns -/
  small : Nat → Nat → Bool
  /-- `_mzd_compress_l(A,r1,n1,r2)` on an `nr × nc` matrix; arguments `nr nc A r1 n1 r2` -/
  compress : Nat → Nat → (Nat → Nat → Word) → Nat → Nat → Nat → Nat → Nat → Word

/-- mzd_slice.h:374-377 `_mzd_slice_compress_l(A,r1,n1,r2)`. -/
def mzdSliceCompressL (env : PleEnv) (A : Slice) (r1 n1 r2 : Nat) : Slice :=
  { A with x := fun k => if k < A.depth then env.compress A.nrows A.ncols (A.x k) r1 n1 r2 else A.x k }

/-- writing through a window (mzd_slice.h:212-226): the parent after the window became `W`. -/
def sliceSetWindow (A : Slice) (lr lc : Nat) (W : Slice) : Slice :=
  { A with x := fun k => mzdWindowWrite (A.x k) lr lc (W.x k) }

/-- ple.c:96-102 the base case of `_mzd_slice_ple`. -/
def mzdSlicePleBase? (cb : Codebook) (A : Slice) (P Q : Nat → Nat) : Option (Slice × (Nat → Nat) × (Nat → Nat) × Nat) :=
  (mzedClingNew? A).bind fun Abar =>
    let p := mzedPleNewtonJohn cb Abar P Q
    (mzedSlice? A p.1).map fun A => (A, p.2.1, p.2.2.1, p.2.2.2)

/-- ple.c:110 the column at which the matrix is split. -/
def pleSplit (ncols : Nat) : Nat := ((ncols - 1) / 64 + 1) / 2 * 64

/-- ple.c:127-137 the Schur complement. -/
def pleSchur? (cb : Codebook) (A : Slice) (P1 : Nat → Nat) (r1 n1 : Nat) : Option Slice :=
  let nrows := A.nrows
  let ncols := A.ncols
  if r1 = 0 then some A
  else
    let A := sliceSetWindow A 0 n1 (mzdSliceApplyPLeft (mzdSliceWindow A 0 n1 nrows ncols) ⟨nrows, P1⟩)
    (onSWindow A 0 n1 r1 ncols fun A01 => mzdSliceTrsmLowerLeft? cb (mzdSliceWindow A 0 0 r1 r1) A01 mzedTrsmCutoff).bind fun A =>
    onSWindow A r1 n1 nrows ncols fun A11 => mzdSliceAddmulKaratsuba? A11 (mzdSliceWindow A r1 0 nrows r1) (mzdSliceWindow A 0 n1 r1 ncols)

/-- ple.c:157-159 `P` after the offsets have been added to its window `P2` (entries `r1 … nrows-1`). -/
def pleMergeP (nrows r1 : Nat) (P P2 : Nat → Nat) : Nat → Nat :=
  let P2 := fun i => if i < nrows - r1 then P2 i + r1 else P2 i
  fun i => if i < r1 then P i else P2 (i - r1)

/-- ple.c:161-165 `Q` after the offsets have been added to its window `Q2` (entries `n1 … ncols-1`) and the pivots of the second half
have been moved next to those of the first. -/
def pleMergeQ (ncols r1 n1 r2 : Nat) (Q Q2 : Nat → Nat) : Nat → Nat :=
  let Q2 := fun i => if i < ncols - n1 then Q2 i + n1 else Q2 i
  let Q := fun i => if i < n1 then Q i else Q2 (i - n1)
  forN (fun t Q => setNat Q (r1 + t) (Q (n1 + t))) r2 Q

/-- ple.c:89-180 `_mzd_slice_ple(A,P,Q,cutoff)`; the first argument bounds the recursion depth. -/
def mzdSlicePleF (env : PleEnv) : Nat → Slice → (Nat → Nat) → (Nat → Nat) → Option (Slice × (Nat → Nat) × (Nat → Nat) × Nat)
  | 0, _, _, _ => none
  | fuel + 1, A, P, Q =>
    let nrows := A.nrows
    let ncols := A.ncols
    if ncols ≤ 64 ∨ env.small nrows ncols = true then mzdSlicePleBase? env.cb A P Q
    else
      let n1 := pleSplit ncols
      (mzdSlicePleF env fuel (mzdSliceWindow A 0 0 nrows n1) P Q).bind fun p1 =>
      let A := sliceSetWindow A 0 0 p1.1
      let P := p1.2.1
      let Q := p1.2.2.1
      let r1 := p1.2.2.2
      (pleSchur? env.cb A P r1 n1).bind fun A =>
      (mzdSlicePleF env fuel (mzdSliceWindow A r1 n1 nrows ncols) (fun i => P (r1 + i)) (fun i => Q (n1 + i))).bind fun p2 =>
      let A := sliceSetWindow A r1 n1 p2.1
      let P2 := p2.2.1
      let Q2 := p2.2.2.1
      let r2 := p2.2.2.2
      let A := sliceSetWindow A r1 0 (mzdSliceApplyPLeft (mzdSliceWindow A r1 0 nrows r1) ⟨nrows - r1, P2⟩)
      some (mzdSliceCompressL env A r1 n1 r2, pleMergeP nrows r1 P P2, pleMergeQ ncols r1 n1 r2 Q Q2, r1 + r2)

/-- ple.c:89-180 `_mzd_slice_ple`; `ncols+1` levels of recursion suffice. -/
def mzdSlicePle? (env : PleEnv) (A : Slice) (P Q : Nat → Nat) : Option (Slice × (Nat → Nat) × (Nat → Nat) × Nat) :=
  mzdSlicePleF env (A.ncols + 1) A P Q

/-- ple.c:74-87 `_mzed_ple(A,P,Q,cutoff)`. -/
def mzedPle? (env : PleEnv) (A : Mzed) (P Q : Nat → Nat) : Option (Mzed × (Nat → Nat) × (Nat → Nat) × Nat) :=
  if 64 < A.ncols ∧ ¬ env.small A.nrows A.ncols = true then
    (mzedSliceNew? A).bind fun a => (mzdSlicePle? env a P Q).bind fun p => (mzedCling? A p.1).map fun A => (A, p.2.1, p.2.2.1, p.2.2.2)
  else some (mzedPleNewtonJohn env.cb A P Q)

/-- ple.c:183-193 `_mzd_slice_pluq(A,P,Q,cutoff)`. -/
def mzdSlicePluq? (env : PleEnv) (A : Slice) (P Q : Nat → Nat) : Option (Slice × (Nat → Nat) × (Nat → Nat) × Nat) :=
  (mzdSlicePle? env A P Q).map fun p =>
    let A := p.1
    let Q := p.2.2.1
    let r := p.2.2.2
    let A := if r ≠ 0 ∧ r < A.nrows then
        sliceSetWindow A 0 0 (mzdSliceApplyPRightTransTri (mzdSliceWindow A 0 0 r A.ncols) ⟨A.ncols, Q⟩)
      else mzdSliceApplyPRightTransTri A ⟨A.ncols, Q⟩
    (A, p.2.1, Q, r)

/-- the comparison `w*ncols*nrows <= cutoff` (ple.c:78, 96).  `gf2e_degree_to_w` returns a `size_t` (gf2e.h:132), so the product
and the comparison are computed modulo `2^64`; in particular a negative cutoff acts like a huge one.  ple.h:128 a cutoff of 0 stands
for `4*L2`. -/
def pleSmall (w l2 : Nat) (cutoff : Int) (nrows ncols : Nat) : Bool :=
  decide (((w * ncols * nrows : Nat) : Int) % 2 ^ 64 ≤ (if cutoff = 0 then ((l2 * 4 : Nat) : Int) else cutoff) % 2 ^ 64)

/-- M4RI `mzd_clear_bits(M,x,y,n)`: `n` bits of row `x` from column `y` on. -/
def m4riClearBits (M : Nat → Nat → Word) (x y n : Nat) : Nat → Nat → Word :=
  ofBits fun i p => if i = x ∧ y ≤ p ∧ p < y + n then false else bitAt M i p

/-- echelonform.c:44-87 the part of `mzd_slice_echelonize_ple(A,1)` between the decomposition and the last permutation. -/
def echPleSolve? (cb : Codebook) (A : Slice) (r : Nat) : Option Slice :=
  let ncols := A.ncols
  let rr := 64 * (r / 64)
  let ones := fun (A : Slice) => sliceSetWindow A 0 0 (forN (fun i U => mzdSliceWriteElem U i i 1#64) r (mzdSliceWindow A 0 0 r r))
  (if rr = r ∧ r ≠ ncols then
      let A := ones A
      onSWindow A 0 r r ncols fun B => mzdSliceTrsmUpperLeft? cb (mzdSliceWindow A 0 0 r r) B mzedTrsmCutoff
    else if rr ≠ r ∧ r ≠ ncols then
      if ncols > rr + 64 then
        let B0 := mzdSliceSubmatrix A 0 rr r (rr + 64)
        let A := ones A
        (mzdSliceTrsmUpperLeft? cb (mzdSliceWindow A 0 0 r r) B0 mzedTrsmCutoff).bind fun B0 =>
        (onSWindow A 0 (rr + 64) r ncols fun B1 => mzdSliceTrsmUpperLeft? cb (mzdSliceWindow A 0 0 r r) B1 mzedTrsmCutoff).bind fun A =>
        onSWindow A 0 rr r (rr + 64) fun B0w => some (mzdSliceCopy B0w B0)
      else
        let B := mzdSliceSubmatrix A 0 rr r ncols
        let A := ones A
        (mzdSliceTrsmUpperLeft? cb (mzdSliceWindow A 0 0 r r) B mzedTrsmCutoff).bind fun B =>
        onSWindow A 0 rr r ncols fun Bw => some (mzdSliceCopy Bw B)
    else some A).bind fun A =>
  onSWindow A 0 0 r r fun U => some (mzdSliceSetUi U 1#64)

/-- echelonform.c:100-108 the part of `mzd_slice_echelonize_ple(A,0)` after the decomposition. -/
def echPleClear (A : Slice) (Q : Nat → Nat) (r : Nat) : Slice :=
  forN (fun i A =>
    let A : Slice := { A with x := fun k =>
      if k < A.depth then forN (fun j M => m4riClearBits M i j (min 64 (i - j + 1))) (i + 1) (A.x k) else A.x k }
    mzdSliceWriteElem A i (Q i) 1#64) r A

/-- echelonform.c:36-121 `mzd_slice_echelonize_ple(A,full)`. -/
def mzdSliceEchelonizePle? (env : PleEnv) (A : Slice) (full : Bool) : Option (Slice × Nat) :=
  let P := (mzpInit A.nrows).val
  let Q := (mzpInit A.ncols).val
  (if full then
      (mzdSlicePluq? env A P Q).bind fun p =>
      let r := p.2.2.2
      (echPleSolve? env.cb p.1 r).map fun A =>
      (if r ≠ 0 then sliceSetWindow A 0 0 (mzdSliceApplyPRight (mzdSliceWindow A 0 0 r A.ncols) ⟨A.ncols, p.2.2.1⟩) else A, r)
    else
      (mzdSlicePle? env A P Q).map fun p => (echPleClear p.1 p.2.2.1 p.2.2.2, p.2.2.2)).map fun p =>
  (if p.2 ≠ p.1.nrows then sliceSetWindow p.1 p.2 0 (mzdSliceSetUi (mzdSliceWindow p.1 p.2 0 p.1.nrows p.1.ncols) 0#64) else p.1, p.2)

/-- echelonform.h:67-73 `mzed_echelonize_ple(A,full)`. -/
def mzedEchelonizePle? (env : PleEnv) (A : Mzed) (full : Bool) : Option (Mzed × Nat) :=
  (mzedSliceNew? A).bind fun a => (mzdSliceEchelonizePle? env a full).bind fun p => (mzedCling? A p.1).map fun A => (A, p.2)

/-- echelonform.c:26-34 `mzed_echelonize(A,full)`; `medium` is the comparison `nrows*ncols*w <= 2*__M4RIE_PLE_CUTOFF`
(arguments: rows, columns). -/
def mzedEchelonize? (env : PleEnv) (optK : Nat) (smallNj : Bool) (medium : Nat → Nat → Bool) (A : Mzed) (full : Bool) : Option (Mzed × Nat) :=
  if A.ff.degree > A.nrows then some (mzedEchelonizeNaive A full)
  else if medium A.nrows A.ncols = true then some (mzedEchelonizeNewtonJohn env.cb optK smallNj A full)
  else mzedEchelonizePle? env A full

end M4rie
