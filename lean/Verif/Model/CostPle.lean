import Verif.Model.PleRec
import Verif.Model.CostTrsm

/-!
# Recursive decomposition and elimination with a log of the calls they make

The functions are those of Model/PleRec with one more result: the direct decompositions, the systems solved directly and the multiplications, in the order of
the calls.  The systems solved on the way log what the block recursion of trsm.inl does (Model/CostTrsm).
-/

namespace M4rie
open Spec

/-- as `onSWindow` (Model/SliceOps; mzd_slice.h:212-226), for code that also returns a log. -/
def onSWindowL (A : Slice) (lr lc hr hc : Nat) (f : Slice → Option (Slice × List Call)) : Option (Slice × List Call) :=
  (f (mzdSliceWindow A lr lc hr hc)).map fun p => ({ A with x := fun k => mzdWindowWrite (A.x k) lr lc (p.1.x k) }, p.2)

/-- ple.c:127-137 the Schur complement, with a log. -/
def pleSchurL? (cb : Codebook) (A : Slice) (P1 : Nat → Nat) (r1 n1 : Nat) : Option (Slice × List Call) :=
  let nrows := A.nrows
  let ncols := A.ncols
  if r1 = 0 then some (A, [])
  else
    let A := sliceSetWindow A 0 n1 (mzdSliceApplyPLeft (mzdSliceWindow A 0 n1 nrows ncols) ⟨nrows, P1⟩)
    (onSWindowL A 0 n1 r1 ncols fun A01 => mzdSliceTrsmLowerLeftL cb (mzdSliceWindow A 0 0 r1 r1) A01 mzedTrsmCutoff).bind fun p =>
    let A := p.1
    let A10 := mzdSliceWindow A r1 0 nrows r1
    let A01 := mzdSliceWindow A 0 n1 r1 ncols
    onSWindowL A r1 n1 nrows ncols fun A11 => (mzdSliceAddmulKaratsuba? A11 A10 A01).map fun R => (R, p.2 ++ [.addmul A10.nrows A10.ncols A01.ncols])

/-- ple.c:89-180 `_mzd_slice_ple(A,P,Q,cutoff)`, with a log. -/
def mzdSlicePleFL (env : PleEnv) : Nat → Slice → (Nat → Nat) → (Nat → Nat) → Option ((Slice × (Nat → Nat) × (Nat → Nat) × Nat) × List Call)
  | 0, _, _, _ => none
  | fuel + 1, A, P, Q =>
    let nrows := A.nrows
    let ncols := A.ncols
    if ncols ≤ 64 ∨ env.small nrows ncols = true then (mzdSlicePleBase? env.cb A P Q).map fun p => (p, [.ple nrows ncols])
    else
      let n1 := pleSplit ncols
      (mzdSlicePleFL env fuel (mzdSliceWindow A 0 0 nrows n1) P Q).bind fun q1 =>
      let p1 := q1.1
      let A := sliceSetWindow A 0 0 p1.1
      let P := p1.2.1
      let Q := p1.2.2.1
      let r1 := p1.2.2.2
      (pleSchurL? env.cb A P r1 n1).bind fun s =>
      let A := s.1
      (mzdSlicePleFL env fuel (mzdSliceWindow A r1 n1 nrows ncols) (fun i => P (r1 + i)) (fun i => Q (n1 + i))).bind fun q2 =>
      let p2 := q2.1
      let A := sliceSetWindow A r1 n1 p2.1
      let P2 := p2.2.1
      let Q2 := p2.2.2.1
      let r2 := p2.2.2.2
      let A := sliceSetWindow A r1 0 (mzdSliceApplyPLeft (mzdSliceWindow A r1 0 nrows r1) ⟨nrows - r1, P2⟩)
      some ((mzdSliceCompressL env A r1 n1 r2, pleMergeP nrows r1 P P2, pleMergeQ ncols r1 n1 r2 Q Q2, r1 + r2), q1.2 ++ s.2 ++ q2.2)

/-- ple.c:89-180 `_mzd_slice_ple`, with a log. -/
def mzdSlicePleL? (env : PleEnv) (A : Slice) (P Q : Nat → Nat) : Option ((Slice × (Nat → Nat) × (Nat → Nat) × Nat) × List Call) :=
  mzdSlicePleFL env (A.ncols + 1) A P Q

/-- ple.c:74-87 `_mzed_ple(A,P,Q,cutoff)`, with a log. -/
def mzedPleL? (env : PleEnv) (A : Mzed) (P Q : Nat → Nat) : Option ((Mzed × (Nat → Nat) × (Nat → Nat) × Nat) × List Call) :=
  if 64 < A.ncols ∧ ¬ env.small A.nrows A.ncols = true then
    (mzedSliceNew? A).bind fun a => (mzdSlicePleL? env a P Q).bind fun q =>
    let p := q.1
    (mzedCling? A p.1).map fun A => ((A, p.2.1, p.2.2.1, p.2.2.2), q.2)
  else some (mzedPleNewtonJohn env.cb A P Q, [.ple A.nrows A.ncols])

/-- ple.c:183-193 `_mzd_slice_pluq(A,P,Q,cutoff)`, with a log. -/
def mzdSlicePluqL? (env : PleEnv) (A : Slice) (P Q : Nat → Nat) : Option ((Slice × (Nat → Nat) × (Nat → Nat) × Nat) × List Call) :=
  (mzdSlicePleL? env A P Q).map fun q =>
    let p := q.1
    let A := p.1
    let Q := p.2.2.1
    let r := p.2.2.2
    let A := if r ≠ 0 ∧ r < A.nrows then
        sliceSetWindow A 0 0 (mzdSliceApplyPRightTransTri (mzdSliceWindow A 0 0 r A.ncols) ⟨A.ncols, Q⟩)
      else mzdSliceApplyPRightTransTri A ⟨A.ncols, Q⟩
    ((A, p.2.1, Q, r), q.2)

/-- echelonform.c:44-87 the part of `mzd_slice_echelonize_ple(A,1)` between the decomposition and the last permutation, with a log. -/
def echPleSolveL? (cb : Codebook) (A : Slice) (r : Nat) : Option (Slice × List Call) :=
  let ncols := A.ncols
  let rr := 64 * (r / 64)
  let ones := fun (A : Slice) => sliceSetWindow A 0 0 (forN (fun i U => mzdSliceWriteElem U i i 1#64) r (mzdSliceWindow A 0 0 r r))
  (if rr = r ∧ r ≠ ncols then
      let A := ones A
      onSWindowL A 0 r r ncols fun B => mzdSliceTrsmUpperLeftL cb (mzdSliceWindow A 0 0 r r) B mzedTrsmCutoff
    else if rr ≠ r ∧ r ≠ ncols then
      if ncols > rr + 64 then
        let B0 := mzdSliceSubmatrix A 0 rr r (rr + 64)
        let A := ones A
        (mzdSliceTrsmUpperLeftL cb (mzdSliceWindow A 0 0 r r) B0 mzedTrsmCutoff).bind fun b =>
        (onSWindowL A 0 (rr + 64) r ncols fun B1 => mzdSliceTrsmUpperLeftL cb (mzdSliceWindow A 0 0 r r) B1 mzedTrsmCutoff).bind fun p =>
        (onSWindow p.1 0 rr r (rr + 64) fun B0w => some (mzdSliceCopy B0w b.1)).map fun A => (A, b.2 ++ p.2)
      else
        let B := mzdSliceSubmatrix A 0 rr r ncols
        let A := ones A
        (mzdSliceTrsmUpperLeftL cb (mzdSliceWindow A 0 0 r r) B mzedTrsmCutoff).bind fun b =>
        (onSWindow A 0 rr r ncols fun Bw => some (mzdSliceCopy Bw b.1)).map fun A => (A, b.2)
    else some (A, [])).bind fun p =>
  (onSWindow p.1 0 0 r r fun U => some (mzdSliceSetUi U 1#64)).map fun A => (A, p.2)

/-- echelonform.c:36-121 `mzd_slice_echelonize_ple(A,full)`, with a log. -/
def mzdSliceEchelonizePleL? (env : PleEnv) (A : Slice) (full : Bool) : Option ((Slice × Nat) × List Call) :=
  let P := (mzpInit A.nrows).val
  let Q := (mzpInit A.ncols).val
  (if full then
      (mzdSlicePluqL? env A P Q).bind fun q =>
      let p := q.1
      let r := p.2.2.2
      (echPleSolveL? env.cb p.1 r).map fun s =>
      let A := s.1
      ((if r ≠ 0 then sliceSetWindow A 0 0 (mzdSliceApplyPRight (mzdSliceWindow A 0 0 r A.ncols) ⟨A.ncols, p.2.2.1⟩) else A, r), q.2 ++ s.2)
    else
      (mzdSlicePleL? env A P Q).map fun q => ((echPleClear q.1.1 q.1.2.2.1 q.1.2.2.2, q.1.2.2.2), q.2)).map fun q =>
  let p := q.1
  ((if p.2 ≠ p.1.nrows then sliceSetWindow p.1 p.2 0 (mzdSliceSetUi (mzdSliceWindow p.1 p.2 0 p.1.nrows p.1.ncols) 0#64) else p.1, p.2), q.2)

/-- echelonform.h:67-73 `mzed_echelonize_ple(A,full)`, with a log. -/
def mzedEchelonizePleL? (env : PleEnv) (A : Mzed) (full : Bool) : Option ((Mzed × Nat) × List Call) :=
  (mzedSliceNew? A).bind fun a => (mzdSliceEchelonizePleL? env a full).bind fun q => (mzedCling? A q.1.1).map fun A => ((A, q.1.2), q.2)

/-- echelonform.c:26-34 `mzed_echelonize(A,full)`, with a log. -/
def mzedEchelonizeL? (env : PleEnv) (optK : Nat) (smallNj : Bool) (medium : Nat → Nat → Bool) (A : Mzed) (full : Bool) : Option ((Mzed × Nat) × List Call) :=
  if A.ff.degree > A.nrows then some (mzedEchelonizeNaive A full, [.elim A.nrows A.ncols])
  else if medium A.nrows A.ncols = true then some (mzedEchelonizeNewtonJohn env.cb optK smallNj A full, [.elim A.nrows A.ncols])
  else mzedEchelonizePleL? env A full

end M4rie
