import Verif.Model.MzedMat

/-! # Gaussian elimination on packed matrices -/

namespace M4rie

/-- mzed.c:221-223 the search loop `for(r=start; r<nr; r++) { x = read(r,c); if (x) … break }`:
first of the `n` rows from `r` on with a non-zero element in column `c`. -/
def findPivot (A : Mzed) (c : Nat) : Nat → Nat → Option Nat
  | 0, _ => none
  | n + 1, r => if mzedReadElem A r c ≠ 0#64 then some r else findPivot A c n (r + 1)

/-- mzed.c:230-237 clear column `c` in the rows `elimStart ≤ i < nr`, `i ≠ startRow`. -/
def elimRows (A : Mzed) (startRow c elimStart : Nat) : Mzed :=
  forN (fun k A =>
    let i := elimStart + k
    if i = startRow then A
    else
      let x := mzedReadElem A i c
      if x = 0#64 then A else mzedAddMultipleOfRow A i A startRow x c) (A.nrows - elimStart) A

/-- mzed.c:220-241 one column. -/
def echelonizeCol (full : Bool) (c : Nat) (s : Mzed × Nat) : Mzed × Nat :=
  let A := s.1
  let startRow := s.2
  match findPivot A c (A.nrows - startRow) startRow with
  | none => s
  | some r =>
    let x := mzedReadElem A r c
    let A := mzedRescaleRow A r c (gf2eInv A.ff x)
    let A := mzedRowSwap A r startRow
    let A := elimRows A startRow c (if full then 0 else startRow + 1)
    (A, startRow + 1)

/-- mzed.c:208-243 `mzed_echelonize_naive(A,full)`: the matrix afterwards and the returned rank. -/
def mzedEchelonizeNaive (A : Mzed) (full : Bool) : Mzed × Nat :=
  forN (echelonizeCol full) A.ncols (A, 0)

end M4rie
