import Verif.Model.SpaceElim

/-!
# Solving triangular systems of packed matrices with a trace of the memory allocated and released

As in Model/SpaceElim, for the packed instance of the template trsm.inl.
-/

namespace M4rie
open Spec

/-- mzed_intro.inl:1-23 the packed instance of the template trsm.inl, for matrices that carry a trace; windows (mzed.h:187-195 `mzed_init_window`) own no contents. -/
def mzedTrsmOpsT (env : MulEnv) : TrsmOps (Mzed × List Event) where
  nrows p := p.1.nrows
  ncols p := p.1.ncols
  window p lr lc hr hc := (mzedWindow p.1 lr lc hr hc, [])
  onWindow p lr lc hr hc f := (f (mzedWindow p.1 lr lc hr hc, p.2)).map fun W => ({ p.1 with words := mzdWindowWrite p.1.words lr (p.1.w * lc) W.1.words }, W.2)
  addmul C A B := mzedAddmulT env C.1 A.1 B.1 C.2
  lowerNj L B := mzedTrsmLowerLeftNewtonJohnT env.cb L.1 B.1 B.2
  upperNj U B := mzedTrsmUpperLeftNewtonJohnT env.cb U.1 B.1 B.2

/-- trsm.c:62-64 `_mzed_trsm_lower_left(L,B,cutoff)`; the trace travels with `B`. -/
def mzedTrsmLowerLeftT (env : MulEnv) (L B : Mzed) (cutoff : Int) : Traced Mzed := fun s =>
  trsmLowerF (mzedTrsmOpsT env) cutoff (B.nrows + 1) (L, []) (B, s)

/-- trsm.c:62-64 `_mzed_trsm_upper_left(U,B,cutoff)`. -/
def mzedTrsmUpperLeftT (env : MulEnv) (U B : Mzed) (cutoff : Int) : Traced Mzed := fun s =>
  trsmUpperF (mzedTrsmOpsT env) cutoff (B.nrows + 1) (U, []) (B, s)

end M4rie
