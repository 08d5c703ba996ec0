import Verif.Model.TrsmRec
import Verif.Spec.CostTrsm

/-!
# The block recursion of trsm.inl with a log of the calls it makes

The recursion is that of Model/TrsmRec, unchanged: the template of trsm.inl is instantiated with matrices that carry a log, to which every operation of the template
that computes appends what it was called for.
-/

namespace M4rie
open Spec

/-- mzed_intro.inl:1-23 the packed instance, with a log. -/
def mzedTrsmOpsL (env : MulEnv) : TrsmOps (Mzed × List Call) where
  nrows p := p.1.nrows
  ncols p := p.1.ncols
  window p lr lc hr hc := (mzedWindow p.1 lr lc hr hc, [])
  onWindow p lr lc hr hc f := (f (mzedWindow p.1 lr lc hr hc, p.2)).map fun W => ({ p.1 with words := mzdWindowWrite p.1.words lr (p.1.w * lc) W.1.words }, W.2)
  addmul C A B := (mzedAddmul? env C.1 A.1 B.1).map fun R => (R, C.2 ++ [.addmul A.1.nrows A.1.ncols B.1.ncols])
  lowerNj L B := some (mzedTrsmLowerLeftNewtonJohn env.cb L.1 B.1, B.2 ++ [.solve B.1.nrows B.1.ncols])
  upperNj U B := some (mzedTrsmUpperLeftNewtonJohn env.cb U.1 B.1, B.2 ++ [.solve B.1.nrows B.1.ncols])

/-- mzd_slice_intro.inl:1-23 the sliced instance, with a log. -/
def sliceTrsmOpsL (cb : Codebook) : TrsmOps (Slice × List Call) where
  nrows p := p.1.nrows
  ncols p := p.1.ncols
  window p lr lc hr hc := (mzdSliceWindow p.1 lr lc hr hc, [])
  onWindow p lr lc hr hc f := (f (mzdSliceWindow p.1 lr lc hr hc, p.2)).map fun W => ({ p.1 with x := fun k => mzdWindowWrite (p.1.x k) lr lc (W.1.x k) }, W.2)
  addmul C A B := (mzdSliceAddmulKaratsuba? C.1 A.1 B.1).map fun R => (R, C.2 ++ [.addmul A.1.nrows A.1.ncols B.1.ncols])
  lowerNj L B := (mzdSliceTrsmLowerLeftNewtonJohn? cb L.1 B.1).map fun R => (R, B.2 ++ [.solve B.1.nrows B.1.ncols])
  upperNj U B := (mzdSliceTrsmUpperLeftNewtonJohn? cb U.1 B.1).map fun R => (R, B.2 ++ [.solve B.1.nrows B.1.ncols])

/-- trsm.c:62-64 `_mzed_trsm_lower_left(L,B,cutoff)`, with a log. -/
def mzedTrsmLowerLeftL (env : MulEnv) (L B : Mzed) (cutoff : Int) : Option (Mzed × List Call) :=
  trsmLowerF (mzedTrsmOpsL env) cutoff (B.nrows + 1) (L, []) (B, [])

/-- trsm.c:62-64 `_mzed_trsm_upper_left(U,B,cutoff)`, with a log. -/
def mzedTrsmUpperLeftL (env : MulEnv) (U B : Mzed) (cutoff : Int) : Option (Mzed × List Call) :=
  trsmUpperF (mzedTrsmOpsL env) cutoff (B.nrows + 1) (U, []) (B, [])

/-- trsm.c:66-68 `_mzd_slice_trsm_lower_left(L,B,cutoff)`, with a log. -/
def mzdSliceTrsmLowerLeftL (cb : Codebook) (L B : Slice) (cutoff : Int) : Option (Slice × List Call) :=
  trsmLowerF (sliceTrsmOpsL cb) cutoff (B.nrows + 1) (L, []) (B, [])

/-- trsm.c:66-68 `_mzd_slice_trsm_upper_left(U,B,cutoff)`, with a log. -/
def mzdSliceTrsmUpperLeftL (cb : Codebook) (U B : Slice) (cutoff : Int) : Option (Slice × List Call) :=
  trsmUpperF (sliceTrsmOpsL cb) cutoff (B.nrows + 1) (U, []) (B, [])

end M4rie
