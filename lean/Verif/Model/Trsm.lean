import Verif.Model.NewtonJohn

/-! # Triangular system solving with matrices (packed) -/

namespace M4rie

/-- trsm.c:5-17 `mzed_trsm_upper_left_naive(U,B)`; iteration `t` is `i = nrows-1-t`, iteration `d` of the inner
loop `k = i+1+d`. -/
def mzedTrsmUpperLeftNaive (U B : Mzed) : Mzed :=
  let n := B.nrows
  forN (fun t B =>
    let i := n - 1 - t
    let B := forN (fun d B => mzedAddMultipleOfRow B i B (i + 1 + d) (mzedReadElem U i (i + 1 + d)) 0) (n - (i + 1)) B
    mzedRescaleRow B i 0 (gf2eInv U.ff (mzedReadElem U i i))) n B

/-- trsm.c:19-31 `mzed_trsm_lower_left_naive(L,B)`. -/
def mzedTrsmLowerLeftNaive (L B : Mzed) : Mzed :=
  let n := B.nrows
  forN (fun i B =>
    let B := forN (fun k B => mzedAddMultipleOfRow B i B k (mzedReadElem L i k) 0) i B
    mzedRescaleRow B i 0 (gf2eInv L.ff (mzedReadElem L i i))) n B

/-- newton_john.c:532-552 `mzed_trsm_lower_left_newton_john(L,B)`. -/
def mzedTrsmLowerLeftNewtonJohn (cb : Codebook) (L B : Mzed) : Mzed :=
  if 2 ^ L.ff.degree ≥ L.nrows then mzedTrsmLowerLeftNaive L B
  else
    let n := B.nrows
    (forN (fun i (s : Mzed × Njt) =>
      let B := mzedRescaleRow s.1 i 0 (gf2eInv L.ff (mzedReadElem L i i))
      let T0 := mzedMakeTable cb s.2 B i 0
      (forN (fun d B => mzedCombine B (i + 1 + d) T0.T (T0.L (mzedReadElem L (i + 1 + d) i).toNat)) (n - (i + 1)) B, T0))
      n (B, njtInit B.ff B.fid B.ncols)).1

/-- newton_john.c:554-574 `mzed_trsm_upper_left_newton_john(U,B)`. -/
def mzedTrsmUpperLeftNewtonJohn (cb : Codebook) (U B : Mzed) : Mzed :=
  if 2 ^ U.ff.degree ≥ U.nrows then mzedTrsmUpperLeftNaive U B
  else
    let n := B.nrows
    (forN (fun t (s : Mzed × Njt) =>
      let i := n - 1 - t
      let B := mzedRescaleRow s.1 i 0 (gf2eInv U.ff (mzedReadElem U i i))
      let T0 := mzedMakeTable cb s.2 B i 0
      (forN (fun j B => mzedCombine B j T0.T (T0.L (mzedReadElem U j i).toNat)) i B, T0))
      n (B, njtInit B.ff B.fid B.ncols)).1

end M4rie
