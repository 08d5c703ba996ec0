import Verif.Model.Space
import Verif.Model.PleRec
import Verif.Model.NjEchelon

/-!
# Solving, decomposition and elimination with a trace of the memory they allocate and release

As in Model/Space: the code of Model/TrsmRec, Model/PleRec and Model/NjEchelon with an entry in the trace for every matrix, table and permutation that is created or released.
Where a function only works in place between allocating and releasing, the function without trace stands for that part.
-/

namespace M4rie
open Spec

/-- conversion.c:88-90 `mzed_cling(NULL,Z)` creates a packed matrix -/
def clingGetT (Z : Slice) : Traced Unit := getBlock (packedWords (degreeToW Z.ff.degree) Z.nrows Z.ncols)

/-- mzed.c:39-42 `mzed_free` of the packed copy of `Z` -/
def clingFreeT (Z : Slice) : Traced Unit := putBlock (packedWords (degreeToW Z.ff.degree) Z.nrows Z.ncols)

/-! ### trsm.c, newton_john.c -/

/-- trsm.c:47-60 `mzd_slice_trsm_lower_left_naive(L,B)`: packed copies of both, released at the end. -/
def mzdSliceTrsmLowerLeftNaiveT (L B : Slice) : Traced Slice := do
  clingGetT L
  clingGetT B
  let R ← inPlace (mzdSliceTrsmLowerLeftNaive? L B)
  clingFreeT L
  clingFreeT B
  pure R

/-- trsm.c:33-45 `mzd_slice_trsm_upper_left_naive(U,B)`. -/
def mzdSliceTrsmUpperLeftNaiveT (U B : Slice) : Traced Slice := do
  clingGetT U
  clingGetT B
  let R ← inPlace (mzdSliceTrsmUpperLeftNaive? U B)
  clingFreeT U
  clingFreeT B
  pure R

/-- newton_john.c:576-599 `mzd_slice_trsm_lower_left_newton_john(L,B)`: the schoolbook method, or a packed copy of `B` and a table. -/
def mzdSliceTrsmLowerLeftNewtonJohnT (cb : Codebook) (L B : Slice) : Traced Slice :=
  if 2 ^ L.ff.degree ≥ L.nrows then mzdSliceTrsmLowerLeftNaiveT L B
  else do
    clingGetT B
    njtInitT B.ff B.ncols
    let R ← inPlace (mzdSliceTrsmLowerLeftNewtonJohn? cb L B)
    clingFreeT B
    njtFreeT B.ff B.ncols
    pure R

/-- newton_john.c:601-624 `mzd_slice_trsm_upper_left_newton_john(U,B)`. -/
def mzdSliceTrsmUpperLeftNewtonJohnT (cb : Codebook) (U B : Slice) : Traced Slice :=
  if 2 ^ U.ff.degree ≥ U.nrows then mzdSliceTrsmUpperLeftNaiveT U B
  else do
    clingGetT B
    njtInitT B.ff B.ncols
    let R ← inPlace (mzdSliceTrsmUpperLeftNewtonJohn? cb U B)
    clingFreeT B
    njtFreeT B.ff B.ncols
    pure R

/-- newton_john.c:532-552 `mzed_trsm_lower_left_newton_john(L,B)`: a table, unless the schoolbook method is used. -/
def mzedTrsmLowerLeftNewtonJohnT (cb : Codebook) (L B : Mzed) : Traced Mzed :=
  if 2 ^ L.ff.degree ≥ L.nrows then pure (mzedTrsmLowerLeftNaive L B)
  else do
    njtInitT B.ff B.ncols
    let R := mzedTrsmLowerLeftNewtonJohn cb L B
    njtFreeT B.ff B.ncols
    pure R

/-- newton_john.c:554-574 `mzed_trsm_upper_left_newton_john(U,B)`. -/
def mzedTrsmUpperLeftNewtonJohnT (cb : Codebook) (U B : Mzed) : Traced Mzed :=
  if 2 ^ U.ff.degree ≥ U.nrows then pure (mzedTrsmUpperLeftNaive U B)
  else do
    njtInitT B.ff B.ncols
    let R := mzedTrsmUpperLeftNewtonJohn cb U B
    njtFreeT B.ff B.ncols
    pure R

/-- mzd_slice_intro.inl:1-23 the sliced instance of the template trsm.inl, for matrices that carry a trace; windows (mzd_slice.h:212-226) own no contents. -/
def sliceTrsmOpsT (cb : Codebook) : TrsmOps (Slice × List Event) where
  nrows p := p.1.nrows
  ncols p := p.1.ncols
  window p lr lc hr hc := (mzdSliceWindow p.1 lr lc hr hc, [])
  onWindow p lr lc hr hc f := (f (mzdSliceWindow p.1 lr lc hr hc, p.2)).map fun W => ({ p.1 with x := fun k => mzdWindowWrite (p.1.x k) lr lc (W.1.x k) }, W.2)
  addmul C A B := mzdSliceAddmulKaratsubaT C.1 A.1 B.1 C.2
  lowerNj L B := mzdSliceTrsmLowerLeftNewtonJohnT cb L.1 B.1 B.2
  upperNj U B := mzdSliceTrsmUpperLeftNewtonJohnT cb U.1 B.1 B.2

/-- trsm.c:66-68 `_mzd_slice_trsm_lower_left(L,B,cutoff)`; the trace travels with `B`. -/
def mzdSliceTrsmLowerLeftT (cb : Codebook) (L B : Slice) (cutoff : Int) : Traced Slice := fun s =>
  trsmLowerF (sliceTrsmOpsT cb) cutoff (B.nrows + 1) (L, []) (B, s)

/-- trsm.c:66-68 `_mzd_slice_trsm_upper_left(U,B,cutoff)`. -/
def mzdSliceTrsmUpperLeftT (cb : Codebook) (U B : Slice) (cutoff : Int) : Traced Slice := fun s =>
  trsmUpperF (sliceTrsmOpsT cb) cutoff (B.nrows + 1) (U, []) (B, s)

/-! ### ple.c, newton_john.c -/

/-- newton_john.c:349-397 `mzed_ple_newton_john(A,P,Q)`: one table. -/
def mzedPleNewtonJohnT (cb : Codebook) (A : Mzed) (P Q : Nat → Nat) : Traced (Mzed × (Nat → Nat) × (Nat → Nat) × Nat) := do
  njtInitT A.ff A.ncols
  let p := mzedPleNewtonJohn cb A P Q
  njtFreeT A.ff A.ncols
  pure p

/-- ple.c:96-102 a packed copy of `A` is decomposed. -/
def mzdSlicePleBaseT (cb : Codebook) (A : Slice) (P Q : Nat → Nat) : Traced (Slice × (Nat → Nat) × (Nat → Nat) × Nat) := do
  clingGetT A
  let Abar ← inPlace (mzedClingNew? A)
  let p ← mzedPleNewtonJohnT cb Abar P Q
  let R ← inPlace (mzedSlice? A p.1)
  clingFreeT A
  pure (R, p.2.1, p.2.2.1, p.2.2.2)

/-- as `onSWindow` (Model/SliceOps; mzd_slice.h:212-226), for code with a trace. -/
def onSWindowT (A : Slice) (lr lc hr hc : Nat) (f : Slice → Traced Slice) : Traced Slice := do
  let W ← f (mzdSliceWindow A lr lc hr hc)
  pure { A with x := fun k => mzdWindowWrite (A.x k) lr lc (W.x k) }

/-- ple.c:127-137 the Schur complement. -/
def pleSchurT (cb : Codebook) (A : Slice) (P1 : Nat → Nat) (r1 n1 : Nat) : Traced Slice :=
  let nrows := A.nrows
  let ncols := A.ncols
  if r1 = 0 then pure A
  else do
    let A := sliceSetWindow A 0 n1 (mzdSliceApplyPLeft (mzdSliceWindow A 0 n1 nrows ncols) ⟨nrows, P1⟩)
    let A ← onSWindowT A 0 n1 r1 ncols fun A01 => mzdSliceTrsmLowerLeftT cb (mzdSliceWindow A 0 0 r1 r1) A01 mzedTrsmCutoff
    onSWindowT A r1 n1 nrows ncols fun A11 => mzdSliceAddmulKaratsubaT A11 (mzdSliceWindow A r1 0 nrows r1) (mzdSliceWindow A 0 n1 r1 ncols)

/-- ple.c:89-180 `_mzd_slice_ple(A,P,Q,cutoff)`. -/
def mzdSlicePleFT (env : PleEnv) : Nat → Slice → (Nat → Nat) → (Nat → Nat) → Traced (Slice × (Nat → Nat) × (Nat → Nat) × Nat)
  | 0, _, _, _ => inPlace none
  | fuel + 1, A, P, Q =>
    let nrows := A.nrows
    let ncols := A.ncols
    if ncols ≤ 64 ∨ env.small nrows ncols = true then mzdSlicePleBaseT env.cb A P Q
    else
      let n1 := pleSplit ncols
      mzdSlicePleFT env fuel (mzdSliceWindow A 0 0 nrows n1) P Q >>= fun p1 =>
      let A := sliceSetWindow A 0 0 p1.1
      let P := p1.2.1
      let Q := p1.2.2.1
      let r1 := p1.2.2.2
      pleSchurT env.cb A P r1 n1 >>= fun A =>
      mzdSlicePleFT env fuel (mzdSliceWindow A r1 n1 nrows ncols) (fun i => P (r1 + i)) (fun i => Q (n1 + i)) >>= fun p2 =>
      let A := sliceSetWindow A r1 n1 p2.1
      let P2 := p2.2.1
      let Q2 := p2.2.2.1
      let r2 := p2.2.2.2
      let A := sliceSetWindow A r1 0 (mzdSliceApplyPLeft (mzdSliceWindow A r1 0 nrows r1) ⟨nrows - r1, P2⟩)
      pure (mzdSliceCompressL env A r1 n1 r2, pleMergeP nrows r1 P P2, pleMergeQ ncols r1 n1 r2 Q Q2, r1 + r2)

/-- ple.c:89-180 `_mzd_slice_ple`. -/
def mzdSlicePleT (env : PleEnv) (A : Slice) (P Q : Nat → Nat) : Traced (Slice × (Nat → Nat) × (Nat → Nat) × Nat) :=
  mzdSlicePleFT env (A.ncols + 1) A P Q

/-- ple.c:74-87 `_mzed_ple(A,P,Q,cutoff)`: slices of `A`, or one table. -/
def mzedPleT (env : PleEnv) (A : Mzed) (P Q : Nat → Nat) : Traced (Mzed × (Nat → Nat) × (Nat → Nat) × Nat) :=
  if 64 < A.ncols ∧ ¬ env.small A.nrows A.ncols = true then do
    let a ← mzedSliceNewT A
    let p ← mzdSlicePleT env a P Q
    let R ← inPlace (mzedCling? A p.1)
    mzdSliceFreeT a
    pure (R, p.2.1, p.2.2.1, p.2.2.2)
  else mzedPleNewtonJohnT env.cb A P Q

/-- ple.c:183-193 `_mzd_slice_pluq(A,P,Q,cutoff)`. -/
def mzdSlicePluqT (env : PleEnv) (A : Slice) (P Q : Nat → Nat) : Traced (Slice × (Nat → Nat) × (Nat → Nat) × Nat) :=
  mzdSlicePleT env A P Q >>= fun p =>
    let A := p.1
    let Q := p.2.2.1
    let r := p.2.2.2
    let A := if r ≠ 0 ∧ r < A.nrows then
        sliceSetWindow A 0 0 (mzdSliceApplyPRightTransTri (mzdSliceWindow A 0 0 r A.ncols) ⟨A.ncols, Q⟩)
      else mzdSliceApplyPRightTransTri A ⟨A.ncols, Q⟩
    pure (A, p.2.1, Q, r)

/-! ### echelonform.c -/

/-- mzd_slice.h:447-456 `mzd_slice_submatrix(NULL,A,lr,lc,hr,hc)` creates `degree` matrices -/
def submatrixGetT (A : Slice) (lr lc hr hc : Nat) : Traced Unit := timesT A.depth (getBlock (gf2Words (hr - lr) (hc - lc)))

/-- mzd_slice.h:145-153 `mzd_slice_free` of it -/
def submatrixFreeT (A : Slice) (lr lc hr hc : Nat) : Traced Unit := timesT A.depth (putBlock (gf2Words (hr - lr) (hc - lc)))

/-- echelonform.c:44-87 the part of `mzd_slice_echelonize_ple(A,1)` between the decomposition and the last permutation. -/
def echPleSolveT (cb : Codebook) (A : Slice) (r : Nat) : Traced Slice :=
  let ncols := A.ncols
  let rr := 64 * (r / 64)
  let ones := fun (A : Slice) => sliceSetWindow A 0 0 (forN (fun i U => mzdSliceWriteElem U i i 1#64) r (mzdSliceWindow A 0 0 r r))
  (if rr = r ∧ r ≠ ncols then
      let A := ones A
      onSWindowT A 0 r r ncols fun B => mzdSliceTrsmUpperLeftT cb (mzdSliceWindow A 0 0 r r) B mzedTrsmCutoff
    else if rr ≠ r ∧ r ≠ ncols then
      if ncols > rr + 64 then do
        submatrixGetT A 0 rr r (rr + 64)
        let free := submatrixFreeT A 0 rr r (rr + 64)
        let B0 := mzdSliceSubmatrix A 0 rr r (rr + 64)
        let A := ones A
        let B0 ← mzdSliceTrsmUpperLeftT cb (mzdSliceWindow A 0 0 r r) B0 mzedTrsmCutoff
        let A ← onSWindowT A 0 (rr + 64) r ncols fun B1 => mzdSliceTrsmUpperLeftT cb (mzdSliceWindow A 0 0 r r) B1 mzedTrsmCutoff
        let R ← inPlace (onSWindow A 0 rr r (rr + 64) fun B0w => some (mzdSliceCopy B0w B0))
        free
        pure R
      else do
        submatrixGetT A 0 rr r ncols
        let free := submatrixFreeT A 0 rr r ncols
        let B := mzdSliceSubmatrix A 0 rr r ncols
        let A := ones A
        let B ← mzdSliceTrsmUpperLeftT cb (mzdSliceWindow A 0 0 r r) B mzedTrsmCutoff
        let R ← inPlace (onSWindow A 0 rr r ncols fun Bw => some (mzdSliceCopy Bw B))
        free
        pure R
    else pure A) >>= fun A =>
  inPlace (onSWindow A 0 0 r r fun U => some (mzdSliceSetUi U 1#64))

/-- echelonform.c:36-121 `mzd_slice_echelonize_ple(A,full)`: two permutations besides. -/
def mzdSliceEchelonizePleT (env : PleEnv) (A : Slice) (full : Bool) : Traced (Slice × Nat) :=
  let m := A.nrows
  let n := A.ncols
  let P := (mzpInit A.nrows).val
  let Q := (mzpInit A.ncols).val
  getBlock (permWords m) >>= fun _ =>
  getBlock (permWords n) >>= fun _ =>
  (if full then
      mzdSlicePluqT env A P Q >>= fun p =>
      let r := p.2.2.2
      echPleSolveT env.cb p.1 r >>= fun A =>
      pure (if r ≠ 0 then sliceSetWindow A 0 0 (mzdSliceApplyPRight (mzdSliceWindow A 0 0 r A.ncols) ⟨A.ncols, p.2.2.1⟩) else A, r)
    else
      mzdSlicePleT env A P Q >>= fun p => pure (echPleClear p.1 p.2.2.1 p.2.2.2, p.2.2.2)) >>= fun p =>
  let R := (if p.2 ≠ p.1.nrows then sliceSetWindow p.1 p.2 0 (mzdSliceSetUi (mzdSliceWindow p.1 p.2 0 p.1.nrows p.1.ncols) 0#64) else p.1, p.2)
  putBlock (permWords m) >>= fun _ =>
  putBlock (permWords n) >>= fun _ =>
  pure R

/-- echelonform.h:67-73 `mzed_echelonize_ple(A,full)`: slices of `A`. -/
def mzedEchelonizePleT (env : PleEnv) (A : Mzed) (full : Bool) : Traced (Mzed × Nat) := do
  let a ← mzedSliceNewT A
  let p ← mzdSliceEchelonizePleT env a full
  let R ← inPlace (mzedCling? A p.1)
  mzdSliceFreeT a
  pure (R, p.2)

/-- newton_john.c:235-347 `mzed_echelonize_newton_john(A,full)`: six tables. -/
def mzedEchelonizeNewtonJohnT (cb : Codebook) (optK : Nat) (small : Bool) (A : Mzed) (full : Bool) : Traced (Mzed × Nat) := do
  timesT 6 (njtInitT A.ff A.ncols)
  let R := mzedEchelonizeNewtonJohn cb optK small A full
  timesT 6 (njtFreeT A.ff A.ncols)
  pure R

/-- echelonform.c:26-34 `mzed_echelonize(A,full)`; `mzed_echelonize_naive` (mzed.c:208-243) allocates nothing. -/
def mzedEchelonizeT (env : PleEnv) (optK : Nat) (smallNj : Bool) (medium : Nat → Nat → Bool) (A : Mzed) (full : Bool) : Traced (Mzed × Nat) :=
  if A.ff.degree > A.nrows then pure (mzedEchelonizeNaive A full)
  else if medium A.nrows A.ncols = true then mzedEchelonizeNewtonJohnT env.cb optK smallNj A full
  else mzedEchelonizePleT env A full

/-- newton_john.c:508-530 `mzed_invert_newton_john(B,A)`, `B` given: the identity `I` and `T = [A I]`; a singular matrix ends the program. -/
def mzedInvertNewtonJohnT (cb : Codebook) (optK : Nat) (small : Bool) (A : Mzed) : Traced Mzed := do
  let I ← mzedInitT A.ff A.fid A.nrows A.ncols
  let I := mzedSetUi I 1#64
  -- mzed_concat(NULL,A,I), mzed.h:111-116
  getBlock (packedWords (degreeToW A.ff.degree) A.nrows (A.ncols + I.ncols))
  let T := mzedConcat A I
  let T ← mzedEchelonizeNewtonJohnT cb optK small T true
  let J := mzedWindow T.1 0 0 A.nrows A.ncols
  let r := mzedEq I J
  mzedFreeT A.ff A.nrows A.ncols
  let R ← inPlace (if r then some (mzedSubmatrix T.1 0 A.ncols A.nrows T.1.ncols) else none)
  mzedFreeT A.ff A.nrows (A.ncols + I.ncols)
  pure R

end M4rie
