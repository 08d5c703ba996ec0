import Verif.Model.NewtonJohn

/-! # Newton-John elimination, PLE, inversion and triangular solving -/

namespace M4rie

/-- newton_john.c:128-131 clear the columns `c … c+n-1` of row `i` with the rows `r … r+n-1`. -/
def gaussClear (A : Mzed) (i r c n : Nat) : Mzed :=
  forN (fun l A =>
    let tmp := mzedReadElem A i (c + l)
    if tmp = 0#64 then A else mzedAddMultipleOfRow A i A (r + l) tmp (c + l)) n A

/-- newton_john.c:139-142 clear column `j` in the rows `r … r+n-1` with row `startRow`. -/
def gaussAbove (A : Mzed) (r n startRow j : Nat) : Mzed :=
  forN (fun l A =>
    let tmp := mzedReadElem A (r + l) j
    if tmp = 0#64 then A else mzedAddMultipleOfRow A (r + l) A startRow tmp j) n A

/-- newton_john.c:126-147 search rows `i, i+1, …` (`n` of them) for a pivot in column `c+t`;
`start_row = r+t`. -/
def gaussRow (r c t : Nat) : Nat → Nat → Mzed → Mzed × Bool
  | 0, _, A => (A, false)
  | n + 1, i, A =>
    let A := gaussClear A i r c t
    let x := mzedReadElem A i (c + t)
    if x = 0#64 then gaussRow r c t n (i + 1) A
    else
      let A := mzedRescaleRow A i (c + t) (gf2eInv A.ff x)
      let A := mzedRowSwap A i (r + t)
      (gaussAbove A r t (r + t) (c + t), true)

/-- newton_john.c:124-152: columns `c+t, …` (`k` of them); returns the number of pivots. -/
def gaussCols (r c endRow : Nat) : Nat → Nat → Mzed → Mzed × Nat
  | 0, t, A => (A, t)
  | k + 1, t, A =>
    let s := gaussRow r c t (endRow - (r + t)) (r + t) A
    if s.2 then gaussCols r c endRow k (t + 1) s.1 else (s.1, t)

/-- newton_john.c:116-153 `_mzed_gauss_submatrix_full(A,r,c,end_row,k)`. -/
def mzedGaussSubmatrixFull (A : Mzed) (r c endRow k : Nat) : Mzed × Nat := gaussCols r c endRow k 0 A

/-- newton_john.c:243-254 number of tables; `optK` is the value of `m4ri_opt_k`, `small` the outcome of
the cache size test `(6*(1<<kk)*A->ncols/8.0) > __M4RI_CPU_L2_CACHE/2.0`. -/
def njKK (degree optK : Nat) (small : Bool) : Nat :=
  let kk := min optK 7
  let kk := if small then kk - 1 else kk
  let kk := 6 * kk / degree
  if kk = 0 then 1 else if kk > 6 then 6 else kk

/-- newton_john.c:267-338 the while loop (at most `fuel` iterations; callers pass `ncols`).
State: matrix, tables, `r`, `c`, `kk`. -/
def njEchLoop (cb : Codebook) (full : Bool) : Nat → Mzed → (Nat → Njt) → Nat → Nat → Nat → Mzed × Nat
  | 0, A, _, r, _, _ => (A, r)
  | fuel + 1, A, Ts, r, c, kk =>
    if c < A.ncols then
      let kk := if c + kk > A.ncols then A.ncols - c else kk
      let g := mzedGaussSubmatrixFull A r c A.nrows kk
      let A := g.1
      let kbar := g.2
      if 1 ≤ kbar ∧ kbar ≤ 6 then
        let Ts := makeTables cb A r c 1 kbar Ts
        let A := if kbar = kk then mzedProcessRows A (r + kbar) A.nrows c kbar Ts else A
        let A := if full then mzedProcessRows A 0 r c kbar Ts else A
        njEchLoop cb full fuel A Ts (r + kbar) (c + kbar) kk
      else njEchLoop cb full fuel A Ts (r + kbar) (c + 1 + kbar) kk
    else (A, r)

/-- newton_john.c:235-347 `mzed_echelonize_newton_john(A,full)`: matrix afterwards and returned value. -/
def mzedEchelonizeNewtonJohn (cb : Codebook) (optK : Nat) (small : Bool) (A : Mzed) (full : Bool) : Mzed × Nat :=
  njEchLoop cb full A.ncols A (fun _ => njtInit A.ff A.fid A.ncols) 0 0 (njKK A.ff.degree optK small)

/-- newton_john.c:508-530 `mzed_invert_newton_john(B,A)`, `B == NULL` or of the right size (the
submatrix copy overwrites all of it); `none`: dies because the matrix does not have full rank. -/
def mzedInvertNewtonJohn? (cb : Codebook) (optK : Nat) (small : Bool) (A : Mzed) : Option Mzed :=
  let I := mzedSetUi (mzedInit A.ff A.fid A.nrows A.ncols) 1#64
  let T := mzedConcat A I
  let T := (mzedEchelonizeNewtonJohn cb optK small T true).1
  let J := mzedWindow T 0 0 A.nrows A.ncols
  if mzedEq I J then some (mzedSubmatrix T 0 A.ncols A.nrows T.ncols) else none

end M4rie
