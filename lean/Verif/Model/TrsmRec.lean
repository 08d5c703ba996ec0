import Verif.Model.SliceOps
import Verif.Model.Trsm

/-! # Triangular solving: sliced matrices and the block-recursive template -/

namespace M4rie

/-- trsm.c:33-45 `mzd_slice_trsm_upper_left_naive(U,B)`. -/
def mzdSliceTrsmUpperLeftNaive? (U B : Slice) : Option Slice :=
  (mzedClingNew? U).bind fun Ue => (mzedClingNew? B).bind fun Be => mzedSlice? B (mzedTrsmUpperLeftNaive Ue Be)

/-- trsm.c:47-60 `mzd_slice_trsm_lower_left_naive(L,B)`. -/
def mzdSliceTrsmLowerLeftNaive? (L B : Slice) : Option Slice :=
  (mzedClingNew? L).bind fun Le => (mzedClingNew? B).bind fun Be => mzedSlice? B (mzedTrsmLowerLeftNaive Le Be)

/-- newton_john.c:576-599 `mzd_slice_trsm_lower_left_newton_john(L,B)`. -/
def mzdSliceTrsmLowerLeftNewtonJohn? (cb : Codebook) (L B : Slice) : Option Slice :=
  if 2 ^ L.ff.degree ≥ L.nrows then mzdSliceTrsmLowerLeftNaive? L B
  else (mzedClingNew? B).bind fun Be =>
    let n := B.nrows
    let nE := Be.nrows
    let r := forN (fun i (s : Mzed × Njt) =>
      let Be := mzedRescaleRow s.1 i 0 (gf2eInv L.ff (mzdSliceReadElem L i i))
      let T0 := mzedMakeTable cb s.2 Be i 0
      (forN (fun d Be => mzedCombine Be (i + 1 + d) T0.T (T0.L (mzdSliceReadElem L (i + 1 + d) i).toNat)) (nE - (i + 1)) Be, T0))
      n (Be, njtInit B.ff B.fid B.ncols)
    mzedSlice? B r.1

/-- newton_john.c:601-624 `mzd_slice_trsm_upper_left_newton_john(U,B)`. -/
def mzdSliceTrsmUpperLeftNewtonJohn? (cb : Codebook) (U B : Slice) : Option Slice :=
  if 2 ^ U.ff.degree ≥ U.nrows then mzdSliceTrsmUpperLeftNaive? U B
  else (mzedClingNew? B).bind fun Be =>
    let n := B.nrows
    let r := forN (fun t (s : Mzed × Njt) =>
      let i := n - 1 - t
      let Be := mzedRescaleRow s.1 i 0 (gf2eInv U.ff (mzdSliceReadElem U i i))
      let T0 := mzedMakeTable cb s.2 Be i 0
      (forN (fun j Be => mzedCombine Be j T0.T (T0.L (mzdSliceReadElem U j i).toNat)) i Be, T0))
      n (Be, njtInit Be.ff Be.fid Be.ncols)
    mzedSlice? B r.1

/-- mzed_intro.inl:1-23 and mzd_slice_intro.inl:1-23: the operations the template trsm.inl is instantiated with. -/
structure TrsmOps (τ : Type) where
  nrows : τ → Nat
  ncols : τ → Nat
  /-- `matrix_init_window` -/
  window : τ → Nat → Nat → Nat → Nat → τ
  /-- the effect on the parent of code writing through a window -/
  onWindow : τ → Nat → Nat → Nat → Nat → (τ → Option τ) → Option τ
  /-- `matrix_addmul` -/
  addmul : τ → τ → τ → Option τ
  /-- `matrix_trsm_lower_left_newton_john` -/
  lowerNj : τ → τ → Option τ
  /-- `matrix_trsm_upper_left_newton_john` -/
  upperNj : τ → τ → Option τ

/-- trsm.inl:32-33 / 76-77 the row at which the triangle is split. -/
def trsmSplit (n : Nat) : Nat := max (n / 2 - n / 2 % 64) 64

/-- trsm.inl:9-50 `_matrix_trsm_lower_left(L,B,cutoff)`.  The first argument bounds the recursion depth (`none` when exhausted);
windows reaching outside the matrix give `none`. -/
def trsmLowerF {τ : Type} (ops : TrsmOps τ) (cutoff : Int) : Nat → τ → τ → Option τ
  | 0, _, _ => none
  | fuel + 1, L, B =>
    if (ops.nrows L : Int) ≤ cutoff ∨ (ops.ncols B : Int) ≤ cutoff then ops.lowerNj L B
    else
      let c := trsmSplit (ops.nrows L)
      let n := ops.nrows B
      let m := ops.ncols B
      if n < c then none
      else
        (ops.onWindow B 0 0 c m fun B0 => trsmLowerF ops cutoff fuel (ops.window L 0 0 c c) B0).bind fun B =>
        (ops.onWindow B c 0 n m fun B1 => ops.addmul B1 (ops.window L c 0 n c) (ops.window B 0 0 c m)).bind fun B =>
        ops.onWindow B c 0 n m fun B1 => trsmLowerF ops cutoff fuel (ops.window L c c n n) B1

/-- trsm.inl:53-94 `_matrix_trsm_upper_left(U,B,cutoff)`. -/
def trsmUpperF {τ : Type} (ops : TrsmOps τ) (cutoff : Int) : Nat → τ → τ → Option τ
  | 0, _, _ => none
  | fuel + 1, U, B =>
    if (ops.nrows U : Int) ≤ cutoff ∨ (ops.ncols B : Int) ≤ cutoff then ops.upperNj U B
    else
      let c := trsmSplit (ops.nrows U)
      let n := ops.nrows B
      let m := ops.ncols B
      if n < c then none
      else
        (ops.onWindow B c 0 n m fun B1 => trsmUpperF ops cutoff fuel (ops.window U c c n n) B1).bind fun B =>
        (ops.onWindow B 0 0 c m fun B0 => ops.addmul B0 (ops.window U 0 c c n) (ops.window B c 0 n m)).bind fun B =>
        ops.onWindow B 0 0 c m fun B0 => trsmUpperF ops cutoff fuel (ops.window U 0 0 c c) B0

/-- mzed_intro.inl:1-23 the packed instance. -/
def mzedTrsmOps (env : MulEnv) : TrsmOps Mzed where
  nrows := Mzed.nrows
  ncols := Mzed.ncols
  window := mzedWindow
  onWindow := onWindow
  addmul := mzedAddmul? env
  lowerNj L B := some (mzedTrsmLowerLeftNewtonJohn env.cb L B)
  upperNj U B := some (mzedTrsmUpperLeftNewtonJohn env.cb U B)

/-- mzd_slice_intro.inl:1-23 the sliced instance. -/
def sliceTrsmOps (cb : Codebook) : TrsmOps Slice where
  nrows := Slice.nrows
  ncols := Slice.ncols
  window := mzdSliceWindow
  onWindow := onSWindow
  addmul := mzdSliceAddmulKaratsuba?
  lowerNj := mzdSliceTrsmLowerLeftNewtonJohn? cb
  upperNj := mzdSliceTrsmUpperLeftNewtonJohn? cb

/-- trsm.c:62-64 `_mzed_trsm_lower_left(L,B,cutoff)`; `nrows+1` levels of recursion always suffice if there is a result. -/
def mzedTrsmLowerLeft? (env : MulEnv) (L B : Mzed) (cutoff : Int) : Option Mzed := trsmLowerF (mzedTrsmOps env) cutoff (B.nrows + 1) L B

/-- trsm.c:62-64 `_mzed_trsm_upper_left(U,B,cutoff)`. -/
def mzedTrsmUpperLeft? (env : MulEnv) (U B : Mzed) (cutoff : Int) : Option Mzed := trsmUpperF (mzedTrsmOps env) cutoff (B.nrows + 1) U B

/-- trsm.c:66-68 `_mzd_slice_trsm_lower_left(L,B,cutoff)`. -/
def mzdSliceTrsmLowerLeft? (cb : Codebook) (L B : Slice) (cutoff : Int) : Option Slice :=
  trsmLowerF (sliceTrsmOps cb) cutoff (B.nrows + 1) L B

/-- trsm.c:66-68 `_mzd_slice_trsm_upper_left(U,B,cutoff)`. -/
def mzdSliceTrsmUpperLeft? (cb : Codebook) (U B : Slice) (cutoff : Int) : Option Slice :=
  trsmUpperF (sliceTrsmOps cb) cutoff (B.nrows + 1) U B

/-- trsm.h:33 `MZED_TRSM_CUTOFF`, the cutoff of `mzed_trsm_lower_left`, `mzd_slice_trsm_lower_left` and the upper variants. -/
def mzedTrsmCutoff : Int := 512

end M4rie
