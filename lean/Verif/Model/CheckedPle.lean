import Verif.Model.CheckedSlice
import Verif.Model.Entry

/-!
# Recursive PLE and PLUQ decomposition and elimination by PLE with every access checked

A permutation `mzp_t` is carried with its length: `P->values[i]` needs `i < P->length`, a window of a permutation must lie inside it.
M4RI's permutation routines need entries that are rows (columns) of the matrix, and fail an assertion unless `P->values[i] >= i`.
Simplification: as in `CheckedRec.lean` a window of a matrix that the C code makes once and uses several times is made (and checked) again
at each use; sums of row or column numbers are not checked for overflow.
-/

namespace M4rie.Chk

/-- `P->values[i]` -/
def pget (P : Mzp) (i : Nat) : Option Nat := if i < P.length then some (P.val i) else none

/-- `P->values[i] = x` -/
def pput (P : Mzp) (i x : Nat) : Option Mzp := if i < P.length then some { P with val := setNat P.val i x } else none

/-- M4RI `mzp_init_window(P,begin,end)`: shares the values. -/
def pwindow (P : Mzp) (lo hi : Nat) : Option Mzp :=
  (need (lo ≤ hi ∧ hi ≤ P.length)).bind fun _ => some ⟨hi - lo, fun i => P.val (lo + i)⟩

/-- the permutation `P` after its window starting at `lo` became `W` -/
def pmerge (P : Mzp) (lo : Nat) (W : Mzp) : Mzp := { P with val := fun i => if i < lo then P.val i else W.val (i - lo) }

/-- the entries of a permutation that M4RI's routines follow -/
def permOk (P : Mzp) (k n : Nat) : Prop := ∀ i, i < k → i ≤ P.val i ∧ P.val i < n

instance (P : Mzp) (k n : Nat) : Decidable (permOk P k n) := by unfold permOk; infer_instance

/-- permutation.h:105-109 `mzd_slice_apply_p_left(A,P)`. -/
def sliceApplyPLeft (A : Slice) (P : Mzp) : Option Slice :=
  (need (permOk P (min P.length A.nrows) A.nrows)).bind fun _ => some (mzdSliceApplyPLeft A P)

/-- permutation.h:135-139 `mzd_slice_apply_p_right(A,P)`. -/
def sliceApplyPRight (A : Slice) (P : Mzp) : Option Slice :=
  (need (permOk P (min P.length A.ncols) A.ncols)).bind fun _ => some (mzdSliceApplyPRight A P)

/-- permutation.h:167-171 `mzd_slice_apply_p_right_trans_tri(A,P)`; M4RI asserts `P->length == A->ncols`. -/
def sliceApplyPRightTransTri (A : Slice) (P : Mzp) : Option Slice :=
  (need (P.length = A.ncols ∧ permOk P A.ncols A.ncols)).bind fun _ => some (mzdSliceApplyPRightTransTri A P)

/-- mzd_slice.h:374-377 `_mzd_slice_compress_l(A,r1,n1,r2)`, with the documented ranges. -/
def sliceCompressL (env : PleEnv) (A : Slice) (r1 n1 r2 : Nat) : Option Slice :=
  (need (r1 ≤ n1 ∧ n1 + r2 ≤ A.ncols ∧ r1 + r2 ≤ A.nrows)).bind fun _ => some (mzdSliceCompressL env A r1 n1 r2)

/-- ple.c:96-102 the base case; `mzed_ple_newton_john` writes `P->values[i]`, `i < nrows`, and `Q->values[j]`, `j < ncols`. -/
def slicePleBase (dbg : Bool) (cb : Codebook) (A : Slice) (P Q : Mzp) : Option (Slice × Mzp × Mzp × Nat) :=
  (clingNew A).bind fun Abar =>
  (need (Abar.nrows ≤ P.length ∧ Abar.ncols ≤ Q.length)).bind fun _ =>
  (pleNewtonJohn dbg cb Abar P.val Q.val).bind fun p =>
  (slice dbg A p.1).bind fun A => some (A, ⟨P.length, p.2.1⟩, ⟨Q.length, p.2.2.1⟩, p.2.2.2)

/-- ple.c:127-137 the Schur complement. -/
def pleSchur (dbg : Bool) (cb : Codebook) (A : Slice) (P1 : Mzp) (r1 n1 : Nat) : Option Slice :=
  let nrows := A.nrows
  let ncols := A.ncols
  if r1 = 0 then some A
  else
    (onSWindow A 0 n1 nrows ncols fun A1 => sliceApplyPLeft A1 P1).bind fun A =>
    (onSWindow A 0 n1 r1 ncols fun A01 => (swindow A 0 0 r1 r1).bind fun A00 => strsmLower dbg cb A00 A01 mzedTrsmCutoff).bind fun A =>
    onSWindow A r1 n1 nrows ncols fun A11 =>
      (swindow A r1 0 nrows r1).bind fun A10 => (swindow A 0 n1 r1 ncols).bind fun A01 => sliceAddmulKaratsuba A11 A10 A01

/-- ple.c:157-162 `for(i=0; i<k; i++) P2->values[i] += d`. -/
def pshift (k d : Nat) (P2 : Mzp) : Option Mzp := forC (fun i P2 => (pget P2 i).bind fun v => pput P2 i (v + d)) k P2

/-- ple.c:163-164 -/
def pcopy (r1 n1 r2 : Nat) (Q : Mzp) : Option Mzp := forC (fun t Q => (pget Q (n1 + t)).bind fun v => pput Q (r1 + t) v) r2 Q

/-- ple.c:89-180 `_mzd_slice_ple(A,P,Q,cutoff)`. -/
def slicePleF (dbg : Bool) (env : PleEnv) : Nat → Slice → Mzp → Mzp → Option (Slice × Mzp × Mzp × Nat)
  | 0, _, _, _ => none
  | fuel + 1, A, P, Q =>
    let nrows := A.nrows
    let ncols := A.ncols
    if ncols ≤ 64 ∨ env.small nrows ncols = true then slicePleBase dbg env.cb A P Q
    else
      let n1 := pleSplit ncols
      (swindow A 0 0 nrows n1).bind fun A0 =>
      (swindow A 0 n1 nrows ncols).bind fun _ =>
      (pwindow P 0 nrows).bind fun P1 =>
      (pwindow Q 0 n1).bind fun Q1 =>
      (slicePleF dbg env fuel A0 P1 Q1).bind fun p1 =>
      let A := sliceSetWindow A 0 0 p1.1
      let P1 := p1.2.1
      let P := pmerge P 0 P1
      let Q := pmerge Q 0 p1.2.2.1
      let r1 := p1.2.2.2
      (swindow A 0 0 r1 r1).bind fun _ =>
      (swindow A r1 0 nrows r1).bind fun _ =>
      (swindow A 0 n1 r1 ncols).bind fun _ =>
      (swindow A r1 n1 nrows ncols).bind fun _ =>
      (pleSchur dbg env.cb A P1 r1 n1).bind fun A =>
      (pwindow P r1 nrows).bind fun P2 =>
      (pwindow Q n1 ncols).bind fun Q2 =>
      (swindow A r1 n1 nrows ncols).bind fun A11 =>
      (slicePleF dbg env fuel A11 P2 Q2).bind fun p2 =>
      let A := sliceSetWindow A r1 n1 p2.1
      let r2 := p2.2.2.2
      (onSWindow A r1 0 nrows r1 fun A10 => sliceApplyPLeft A10 p2.2.1).bind fun A =>
      (pshift (nrows - r1) r1 p2.2.1).bind fun P2 =>
      (pshift (ncols - n1) n1 p2.2.2.1).bind fun Q2 =>
      (pcopy r1 n1 r2 (pmerge Q n1 Q2)).bind fun Q =>
      (sliceCompressL env A r1 n1 r2).bind fun A =>
      some (A, pmerge P r1 P2, Q, r1 + r2)

/-- ple.c:89-180 `_mzd_slice_ple`. -/
def slicePle (dbg : Bool) (env : PleEnv) (A : Slice) (P Q : Mzp) : Option (Slice × Mzp × Mzp × Nat) := slicePleF dbg env (A.ncols + 1) A P Q

/-- ple.c:74-87 `_mzed_ple(A,P,Q,cutoff)`. -/
def mzedPle (dbg : Bool) (env : PleEnv) (A : Mzed) (P Q : Mzp) : Option (Mzed × Mzp × Mzp × Nat) :=
  if 64 < A.ncols ∧ ¬ env.small A.nrows A.ncols = true then
    (sliceNew dbg A).bind fun a => (slicePle dbg env a P Q).bind fun p => (cling A p.1).bind fun A => some (A, p.2)
  else
    (need (A.nrows ≤ P.length ∧ A.ncols ≤ Q.length)).bind fun _ =>
    (pleNewtonJohn dbg env.cb A P.val Q.val).bind fun p => some (p.1, ⟨P.length, p.2.1⟩, ⟨Q.length, p.2.2.1⟩, p.2.2.2)

/-- ple.c:183-193 `_mzd_slice_pluq(A,P,Q,cutoff)`. -/
def slicePluq (dbg : Bool) (env : PleEnv) (A : Slice) (P Q : Mzp) : Option (Slice × Mzp × Mzp × Nat) :=
  (slicePle dbg env A P Q).bind fun p =>
  let A := p.1
  let Q := p.2.2.1
  let r := p.2.2.2
  (if r ≠ 0 ∧ r < A.nrows then onSWindow A 0 0 r A.ncols fun A0 => sliceApplyPRightTransTri A0 Q
    else sliceApplyPRightTransTri A Q).bind fun A => some (A, p.2.1, Q, r)

/-- ple.h:104-108 `mzd_slice_ple(A,P,Q)`. -/
def slicePleTop (dbg : Bool) (cb : Codebook) (compress : Nat → Nat → (Nat → Nat → Word) → Nat → Nat → Nat → Nat → Nat → Word) (l2 : Nat)
    (A : Slice) (P Q : Mzp) : Option (Slice × Mzp × Mzp × Nat) :=
  (assert? dbg (P.length = A.nrows)).bind fun _ => (assert? dbg (Q.length = A.ncols)).bind fun _ =>
  slicePle dbg (pleEnvOf cb compress A.ff l2 0) A P Q

/-- ple.h:141-145 `mzd_slice_pluq(A,P,Q)`. -/
def slicePluqTop (dbg : Bool) (cb : Codebook) (compress : Nat → Nat → (Nat → Nat → Word) → Nat → Nat → Nat → Nat → Nat → Word) (l2 : Nat)
    (A : Slice) (P Q : Mzp) : Option (Slice × Mzp × Mzp × Nat) :=
  (assert? dbg (P.length = A.nrows)).bind fun _ => (assert? dbg (Q.length = A.ncols)).bind fun _ =>
  slicePluq dbg (pleEnvOf cb compress A.ff l2 0) A P Q

/-- mzd_slice.h:447-456 `mzd_slice_submatrix(NULL,A,lowr,lowc,highr,highc)`; M4RI: `mzd_submatrix` needs bounds inside the matrix. -/
def sliceSubmatrix (A : Slice) (lowr lowc highr highc : Nat) : Option Slice :=
  (need (lowr ≤ highr ∧ highr ≤ A.nrows ∧ lowc ≤ highc ∧ highc ≤ A.ncols)).bind fun _ => some (mzdSliceSubmatrix A lowr lowc highr highc)

/-- mzd_slice.h:164-172 `mzd_slice_copy(B,A)`, `B` given; M4RI: `mzd_copy` dies if `B` is smaller; the slices of `B` must exist. -/
def sliceCopy (B A : Slice) : Option Slice :=
  (need (A.depth ≤ B.depth ∧ A.nrows ≤ B.nrows ∧ A.ncols ≤ B.ncols)).bind fun _ => some (mzdSliceCopy B A)

/-- echelonform.c:49-50, 61-62, 76-77 `for(i=0; i<r; ++i) mzd_slice_write_elem(U,i,i,1)` on the window `U` of `A`. -/
def sliceOnes (A : Slice) (r : Nat) : Option Slice := onSWindow A 0 0 r r fun U => forC (fun i U => sliceWriteElem U i i 1#64) r U

/-- echelonform.c:44-87 the part of `mzd_slice_echelonize_ple(A,1)` between the decomposition and the last permutation. -/
def echPleSolve (dbg : Bool) (cb : Codebook) (A : Slice) (r : Nat) : Option Slice :=
  let ncols := A.ncols
  let rr := 64 * (r / 64)
  (swindow A 0 0 r r).bind fun _ =>
  (if rr = r ∧ r ≠ ncols then
      (sliceOnes A r).bind fun A =>
      onSWindow A 0 r r ncols fun B => (swindow A 0 0 r r).bind fun U => strsmUpper dbg cb U B mzedTrsmCutoff
    else if rr ≠ r ∧ r ≠ ncols then
      (assert? dbg (rr < r)).bind fun _ =>
      if ncols > rr + 64 then
        (sliceSubmatrix A 0 rr r (rr + 64)).bind fun B0 =>
        (sliceOnes A r).bind fun A =>
        ((swindow A 0 0 r r).bind fun U => strsmUpper dbg cb U B0 mzedTrsmCutoff).bind fun B0 =>
        (onSWindow A 0 (rr + 64) r ncols fun B1 => (swindow A 0 0 r r).bind fun U => strsmUpper dbg cb U B1 mzedTrsmCutoff).bind fun A =>
        onSWindow A 0 rr r (rr + 64) fun B0w => sliceCopy B0w B0
      else
        (sliceSubmatrix A 0 rr r ncols).bind fun B =>
        (sliceOnes A r).bind fun A =>
        ((swindow A 0 0 r r).bind fun U => strsmUpper dbg cb U B mzedTrsmCutoff).bind fun B =>
        onSWindow A 0 rr r ncols fun Bw => sliceCopy Bw B
    else some A).bind fun A =>
  onSWindow A 0 0 r r fun U => some (mzdSliceSetUi U 1#64)

/-- echelonform.c:102-105 the loop over `j` on one slice; M4RI: `mzd_clear_bits(M,x,y,n)` needs `n` from 1 to 64 bits of a row. -/
def clearLoop (nrows ncols i : Nat) (M : Nat → Nat → Word) : Option (Nat → Nat → Word) :=
  forC (fun j M => (need (i < nrows ∧ j + min 64 (i - j + 1) ≤ ncols ∧ 1 ≤ min 64 (i - j + 1) ∧ min 64 (i - j + 1) ≤ 64)).bind fun _ =>
    some (m4riClearBits M i j (min 64 (i - j + 1)))) (i + 1) M

/-- echelonform.c:100-108 the part of `mzd_slice_echelonize_ple(A,0)` after the decomposition. -/
def echPleClear (A : Slice) (Q : Mzp) (r : Nat) : Option Slice :=
  forC (fun i A =>
    (forC (fun e x => (clearLoop A.nrows A.ncols i (x e)).bind fun M => some (setSlice x e M)) A.depth A.x).bind fun x =>
    (pget Q i).bind fun q => sliceWriteElem { A with x := x } i q 1#64) r A

/-- echelonform.c:36-121 `mzd_slice_echelonize_ple(A,full)`; `env` is the environment of `mzd_slice_ple` and `mzd_slice_pluq`. -/
def sliceEchelonizePle (dbg : Bool) (env : PleEnv) (A : Slice) (full : Bool) : Option (Slice × Nat) :=
  let P := mzpInit A.nrows
  let Q := mzpInit A.ncols
  (assert? dbg (P.length = A.nrows)).bind fun _ => (assert? dbg (Q.length = A.ncols)).bind fun _ =>
  (if full then
      (slicePluq dbg env A P Q).bind fun p =>
      let r := p.2.2.2
      (echPleSolve dbg env.cb p.1 r).bind fun A =>
      (if r ≠ 0 then onSWindow A 0 0 r A.ncols fun A0 => sliceApplyPRight A0 p.2.2.1 else some A).bind fun A => some (A, r)
    else
      (slicePle dbg env A P Q).bind fun p => (echPleClear p.1 p.2.2.1 p.2.2.2).bind fun A => some (A, p.2.2.2)).bind fun p =>
  (if p.2 ≠ p.1.nrows then onSWindow p.1 p.2 0 p.1.nrows p.1.ncols fun R => some (mzdSliceSetUi R 0#64) else some p.1).bind fun A => some (A, p.2)

/-- echelonform.h:67-73 `mzed_echelonize_ple(A,full)`. -/
def echelonizePle (dbg : Bool) (env : PleEnv) (A : Mzed) (full : Bool) : Option (Mzed × Nat) :=
  (sliceNew dbg A).bind fun a => (sliceEchelonizePle dbg env a full).bind fun p => (cling A p.1).bind fun A => some (A, p.2)

/-- echelonform.c:29 the comparison `nrows*ncols*w <= 2*__M4RIE_PLE_CUTOFF`, all of type `int`. -/
def medium (l2 w nrows ncols : Nat) : Option Bool :=
  (int? (nrows * ncols)).bind fun a => (int? (a * w)).bind fun b => some (decide (b ≤ 2 * (l2 * 4)))

/-- echelonform.c:26-34 `mzed_echelonize(A,full)`. -/
def echelonize (dbg : Bool) (env : PleEnv) (l2 optK : Nat) (smallNj : Bool) (A : Mzed) (full : Bool) : Option (Mzed × Nat) :=
  if A.ff.degree > A.nrows then echelonizeNaive dbg A full
  else (medium l2 A.w A.nrows A.ncols).bind fun b =>
    if b = true then echelonizeNewtonJohn dbg env.cb optK smallNj A full else echelonizePle dbg env A full

end M4rie.Chk
