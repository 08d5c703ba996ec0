import Verif.Model.Echelon
import Verif.Model.NewtonJohn

/-! # PLE decomposition of packed matrices -/

namespace M4rie

/-- ple.c:35-45 (newton_john.c:361-371) the search for the first column `j ≥ col_pos` with a non-zero element in the rows
`≥ row_pos`; `n` columns are left. -/
def plePivot (A : Mzed) (rowPos : Nat) : Nat → Nat → Option (Nat × Nat)
  | 0, _ => none
  | n + 1, j =>
    match findPivot A j (A.nrows - rowPos) rowPos with
    | some i => some (i, j)
    | none => plePivot A rowPos n (j + 1)

/-- `a[i] = x` -/
def setNat (a : Nat → Nat) (i x : Nat) : Nat → Nat := fun k => if k = i then x else a k

/-- state of the loop: matrix, `P`, `Q`, `row_pos`, `col_pos`, tables -/
structure PleState (τ : Type) where
  A : Mzed
  P : Nat → Nat
  Q : Nat → Nat
  rowPos : Nat
  colPos : Nat
  T : τ

/-- ple.c:33-63 (newton_john.c:359-386) the while loop (at most `fuel` iterations; callers pass `ncols`); `clear` is the code
under `if (j+1 < A->ncols)`, with arguments `row_pos`, `j`, `tmp`. -/
def pleLoop {τ : Type} (clear : Nat → Nat → Word → Mzed × τ → Mzed × τ) : Nat → PleState τ → PleState τ
  | 0, s => s
  | fuel + 1, s =>
    if s.rowPos < s.A.nrows ∧ s.colPos < s.A.ncols then
      match plePivot s.A s.rowPos (s.A.ncols - s.colPos) s.colPos with
      | none => s
      | some (i, j) =>
        let tmp := mzedReadElem s.A i j
        let A := mzedRowSwap s.A s.rowPos i
        let p := if j + 1 < A.ncols then clear s.rowPos j tmp (A, s.T) else (A, s.T)
        pleLoop clear fuel ⟨p.1, setNat s.P s.rowPos i, setNat s.Q s.rowPos j, s.rowPos + 1, j + 1, p.2⟩
    else s

/-- ple.c:64-71 (newton_john.c:387-396) fill `P`, `Q` up and move the columns of `L` to the left. -/
def pleFinish {τ : Type} (s : PleState τ) : Mzed × (Nat → Nat) × (Nat → Nat) × Nat :=
  let P := fun i => if s.rowPos ≤ i ∧ i < s.A.nrows then i else s.P i
  let Q := fun i => if s.rowPos ≤ i ∧ i < s.A.ncols then i else s.Q i
  (forN (fun i A => mzedColSwapInRows A i (Q i) i A.nrows) s.rowPos s.A, P, Q, s.rowPos)

/-- ple.c:51-56 -/
def pleClearNaive (rowPos j : Nat) (tmp : Word) (s : Mzed × Unit) : Mzed × Unit :=
  let A := mzedRescaleRow s.1 rowPos (j + 1) (gf2eInv s.1.ff tmp)
  (forN (fun d A =>
    let l := rowPos + 1 + d
    let tmp := mzedReadElem A l j
    if tmp ≠ 0#64 then mzedAddMultipleOfRow A l A rowPos tmp (j + 1) else A) (A.nrows - (rowPos + 1)) A, ())

/-- ple.c:25-72 `mzed_ple_naive(A,P,Q)`: matrix, `P`, `Q` and rank afterwards. -/
def mzedPleNaive (A : Mzed) (P Q : Nat → Nat) : Mzed × (Nat → Nat) × (Nat → Nat) × Nat :=
  pleFinish (pleLoop pleClearNaive A.ncols ⟨A, P, Q, 0, 0, ()⟩)

/-- newton_john.c:377-379 -/
def pleClearNj (cb : Codebook) (rowPos j : Nat) (tmp : Word) (s : Mzed × Njt) : Mzed × Njt :=
  let A := mzedRescaleRow s.1 rowPos (j + 1) (gf2eInv s.1.ff tmp)
  let T0 := mzedMakeTable cb s.2 A rowPos (j + 1)
  (mzedProcessRows A (rowPos + 1) A.nrows j 1 (fun _ => T0), T0)

/-- newton_john.c:349-397 `mzed_ple_newton_john(A,P,Q)`. -/
def mzedPleNewtonJohn (cb : Codebook) (A : Mzed) (P Q : Nat → Nat) : Mzed × (Nat → Nat) × (Nat → Nat) × Nat :=
  pleFinish (pleLoop (pleClearNj cb) A.ncols ⟨A, P, Q, 0, 0, njtInit A.ff A.fid A.ncols⟩)

end M4rie
