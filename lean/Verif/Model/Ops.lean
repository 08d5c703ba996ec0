import Verif.Model.Ple
import Verif.Model.Trsm
import Verif.Model.NjEchelon
import Verif.Spec.Ops

/-!
# The Newton-John algorithms with their operations in the field counted

The same code as in Model/NewtonJohn, Model/NjEchelon, Model/Ple and Model/Trsm, statement by statement.  A product is counted for every entry a row
function multiplies, a sum for every entry of a row that is changed by adding another row to it.  Reading, swapping and inverting elements is not counted.
-/

namespace M4rie
open M4rie.Spec

/-- `for(i = 0; i < n; i++)` -/
def forNC {σ : Type} (f : Nat → σ → Counted σ) : Nat → σ → Counted σ
  | 0, s => pure s
  | n + 1, s => forNC f n s >>= f n

/-- mzed.c:272-630 `mzed_add_multiple_of_row(A,ar,B,br,x,start_col)`: nothing for `x = 0`, a row addition for `x = 1`, otherwise one product and one sum for every
entry from `start_col` on. -/
def addMultC (A : Mzed) (ar : Nat) (B : Mzed) (br : Nat) (x : Word) (startCol : Nat) : Counted Mzed :=
  ⟨mzedAddMultipleOfRow A ar B br x startCol, if x = 0#64 ∨ x = 1#64 then 0 else A.ncols - startCol, if x = 0#64 then 0 else A.ncols - startCol⟩

/-- mzed.h:549-897 `mzed_rescale_row(A,r,start_col,x)`: one product for every entry from `start_col` on, whatever `x` is. -/
def rescaleC (A : Mzed) (r startCol : Nat) (x : Word) : Counted Mzed := ⟨mzedRescaleRow A r startCol x, A.ncols - startCol, 0⟩

/-- entries in the words from the one with column `c` on -/
def wordEntries (A : Mzed) (c : Nat) : Nat := A.ncols - A.w * c / 64 * (64 / A.w)

/-- newton_john.c:156-233 `mzed_make_table(T,A,r,c)`: multiples of the row by `1, x, x^2, …`, and one sum of rows for each entry of the table but the first. -/
def makeTableC (cb : Codebook) (T : Njt) (A : Mzed) (r c : Nat) : Counted Njt := do
  let M := { T.M with words := mzdClear T.M.nrows T.M.bitCols T.M.words }
  let degree := A.ff.degree
  let homeblock := A.w * c / 64
  let M ← forNC (fun i M => addMultC M i A r (twoPow i) c) degree M
  let s ← forNC (fun k s => ⟨njStep cb M homeblock k s, 0, wordEntries T.M c⟩) (T.T.nrows - 1) (T.L, T.T)
  pure ⟨s.1, M, s.2⟩

/-- `mzed_make_table` for `n` tables (newton_john.c:276-332, 434-443). -/
def makeTablesC (cb : Codebook) (A : Mzed) (r c dc n : Nat) (Ts : Nat → Njt) : Counted (Nat → Njt) :=
  forNC (fun q Ts => do
    let T ← makeTableC cb (Ts q) A (r + q) (c + dc * q)
    pure fun k => if k = q then T else Ts k) n Ts

/-- newton_john.h:227-229 `mzed_process_rows` and, with `n` tables, 231-336: `n` table rows are added to each row. -/
def processRowsC (M : Mzed) (startrow endrow startcol : Nat) (n : Nat) (Ts : Nat → Njt) : Counted Mzed :=
  ⟨mzedProcessRows M startrow endrow startcol n Ts, 0, (endrow - startrow) * (n * wordEntries M startcol)⟩

/-! ### elimination -/

/-- newton_john.c:128-131 -/
def gaussClearC (A : Mzed) (i r c n : Nat) : Counted Mzed :=
  forNC (fun l A =>
    let tmp := mzedReadElem A i (c + l)
    if tmp = 0#64 then pure A else addMultC A i A (r + l) tmp (c + l)) n A

/-- newton_john.c:139-142 -/
def gaussAboveC (A : Mzed) (r n startRow j : Nat) : Counted Mzed :=
  forNC (fun l A =>
    let tmp := mzedReadElem A (r + l) j
    if tmp = 0#64 then pure A else addMultC A (r + l) A startRow tmp j) n A

/-- newton_john.c:126-147 -/
def gaussRowC (r c t : Nat) : Nat → Nat → Mzed → Counted (Mzed × Bool)
  | 0, _, A => pure (A, false)
  | n + 1, i, A => do
    let A ← gaussClearC A i r c t
    let x := mzedReadElem A i (c + t)
    if x = 0#64 then gaussRowC r c t n (i + 1) A
    else do
      let A ← rescaleC A i (c + t) (gf2eInv A.ff x)
      let A := mzedRowSwap A i (r + t)
      let A ← gaussAboveC A r t (r + t) (c + t)
      pure (A, true)

/-- newton_john.c:124-152 -/
def gaussColsC (r c endRow : Nat) : Nat → Nat → Mzed → Counted (Mzed × Nat)
  | 0, t, A => pure (A, t)
  | k + 1, t, A => do
    let s ← gaussRowC r c t (endRow - (r + t)) (r + t) A
    if s.2 then gaussColsC r c endRow k (t + 1) s.1 else pure (s.1, t)

/-- newton_john.c:267-338 -/
def njEchLoopC (cb : Codebook) (full : Bool) : Nat → Mzed → (Nat → Njt) → Nat → Nat → Nat → Counted (Mzed × Nat)
  | 0, A, _, r, _, _ => pure (A, r)
  | fuel + 1, A, Ts, r, c, kk =>
    if c < A.ncols then do
      let kk := if c + kk > A.ncols then A.ncols - c else kk
      let g ← gaussColsC r c A.nrows kk 0 A
      if 1 ≤ g.2 ∧ g.2 ≤ 6 then do
        let Ts ← makeTablesC cb g.1 r c 1 g.2 Ts
        let A ← (if g.2 = kk then processRowsC g.1 (r + g.2) g.1.nrows c g.2 Ts else pure g.1)
        let A ← (if full then processRowsC A 0 r c g.2 Ts else pure A)
        njEchLoopC cb full fuel A Ts (r + g.2) (c + g.2) kk
      else njEchLoopC cb full fuel g.1 Ts (r + g.2) (c + 1 + g.2) kk
    else pure (A, r)

/-- newton_john.c:235-347 `mzed_echelonize_newton_john(A,full)`. -/
def mzedEchelonizeNewtonJohnC (cb : Codebook) (optK : Nat) (small : Bool) (A : Mzed) (full : Bool) : Counted (Mzed × Nat) :=
  njEchLoopC cb full A.ncols A (fun _ => njtInit A.ff A.fid A.ncols) 0 0 (njKK A.ff.degree optK small)

/-- newton_john.c:508-530 `mzed_invert_newton_john(B,A)`. -/
def mzedInvertNewtonJohnC (cb : Codebook) (optK : Nat) (small : Bool) (A : Mzed) : Counted (Option Mzed) := do
  let I := mzedSetUi (mzedInit A.ff A.fid A.nrows A.ncols) 1#64
  let T := mzedConcat A I
  let T ← mzedEchelonizeNewtonJohnC cb optK small T true
  let J := mzedWindow T.1 0 0 A.nrows A.ncols
  pure (if mzedEq I J then some (mzedSubmatrix T.1 0 A.ncols A.nrows T.1.ncols) else none)

/-! ### PLE decomposition -/

/-- newton_john.c:359-386 the while loop of Model/Ple -/
def pleLoopC {τ : Type} (clear : Nat → Nat → Word → Mzed × τ → Counted (Mzed × τ)) : Nat → PleState τ → Counted (PleState τ)
  | 0, s => pure s
  | fuel + 1, s =>
    if s.rowPos < s.A.nrows ∧ s.colPos < s.A.ncols then
      match plePivot s.A s.rowPos (s.A.ncols - s.colPos) s.colPos with
      | none => pure s
      | some (i, j) => do
        let tmp := mzedReadElem s.A i j
        let A := mzedRowSwap s.A s.rowPos i
        let p ← (if j + 1 < A.ncols then clear s.rowPos j tmp (A, s.T) else pure (A, s.T))
        pleLoopC clear fuel ⟨p.1, setNat s.P s.rowPos i, setNat s.Q s.rowPos j, s.rowPos + 1, j + 1, p.2⟩
    else pure s

/-- newton_john.c:377-379 -/
def pleClearNjC (cb : Codebook) (rowPos j : Nat) (tmp : Word) (s : Mzed × Njt) : Counted (Mzed × Njt) := do
  let A ← rescaleC s.1 rowPos (j + 1) (gf2eInv s.1.ff tmp)
  let T0 ← makeTableC cb s.2 A rowPos (j + 1)
  let A ← processRowsC A (rowPos + 1) A.nrows j 1 (fun _ => T0)
  pure (A, T0)

/-- newton_john.c:349-397 `mzed_ple_newton_john(A,P,Q)`; the column swaps at the end make no operations in the field. -/
def mzedPleNewtonJohnC (cb : Codebook) (A : Mzed) (P Q : Nat → Nat) : Counted (Mzed × (Nat → Nat) × (Nat → Nat) × Nat) := do
  let s ← pleLoopC (pleClearNjC cb) A.ncols ⟨A, P, Q, 0, 0, njtInit A.ff A.fid A.ncols⟩
  pure (pleFinish s)

/-! ### triangular solving -/

/-- trsm.c:5-17 -/
def trsmUpperLeftNaiveC (U B : Mzed) : Counted Mzed :=
  let n := B.nrows
  forNC (fun t B => do
    let i := n - 1 - t
    let B ← forNC (fun d B => addMultC B i B (i + 1 + d) (mzedReadElem U i (i + 1 + d)) 0) (n - (i + 1)) B
    rescaleC B i 0 (gf2eInv U.ff (mzedReadElem U i i))) n B

/-- trsm.c:19-31 -/
def trsmLowerLeftNaiveC (L B : Mzed) : Counted Mzed :=
  let n := B.nrows
  forNC (fun i B => do
    let B ← forNC (fun k B => addMultC B i B k (mzedReadElem L i k) 0) i B
    rescaleC B i 0 (gf2eInv L.ff (mzedReadElem L i i))) n B

/-- `mzd_combine` on a whole row -/
def combineC (C : Mzed) (j : Nat) (T : Mzed) (x : Nat) : Counted Mzed := ⟨mzedCombine C j T x, 0, C.ncols⟩

/-- newton_john.c:532-552 `mzed_trsm_lower_left_newton_john(L,B)`. -/
def trsmLowerLeftNewtonJohnC (cb : Codebook) (L B : Mzed) : Counted Mzed :=
  if 2 ^ L.ff.degree ≥ L.nrows then trsmLowerLeftNaiveC L B
  else do
    let n := B.nrows
    let s ← forNC (fun i (s : Mzed × Njt) => do
      let B ← rescaleC s.1 i 0 (gf2eInv L.ff (mzedReadElem L i i))
      let T0 ← makeTableC cb s.2 B i 0
      let B ← forNC (fun d B => combineC B (i + 1 + d) T0.T (T0.L (mzedReadElem L (i + 1 + d) i).toNat)) (n - (i + 1)) B
      pure (B, T0)) n (B, njtInit B.ff B.fid B.ncols)
    pure s.1

/-- newton_john.c:554-574 `mzed_trsm_upper_left_newton_john(U,B)`. -/
def trsmUpperLeftNewtonJohnC (cb : Codebook) (U B : Mzed) : Counted Mzed :=
  if 2 ^ U.ff.degree ≥ U.nrows then trsmUpperLeftNaiveC U B
  else do
    let n := B.nrows
    let s ← forNC (fun t (s : Mzed × Njt) => do
      let i := n - 1 - t
      let B ← rescaleC s.1 i 0 (gf2eInv U.ff (mzedReadElem U i i))
      let T0 ← makeTableC cb s.2 B i 0
      let B ← forNC (fun j B => combineC B j T0.T (T0.L (mzedReadElem U j i).toNat)) i B
      pure (B, T0)) n (B, njtInit B.ff B.fid B.ncols)
    pure s.1

/-! ### multiplication -/

/-- mzed.c:128-138 `_mzed_mul_naive(C,A,B)` -/
def mulNaiveAccOpsC (C A B : Mzed) : Counted Mzed :=
  forNC (fun i C => forNC (fun j C => forNC (fun k C =>
    ⟨mzedAddElem C i j (gf2eMul C.ff (mzedReadElem A i k) (mzedReadElem B k j)), 1, 1⟩) A.ncols C) C.ncols C) C.nrows C

/-- newton_john.c:399-410 -/
def mulNj0FromC (cb : Codebook) (C A B : Mzed) (T0 : Njt) (from_ n : Nat) : Counted (Mzed × Njt) :=
  forNC (fun k (s : Mzed × Njt) => do
    let i := from_ + k
    let T0 ← makeTableC cb s.2 B i 0
    let C ← forNC (fun j C => combineC C j T0.T (T0.L (mzedReadElem A j i).toNat)) A.nrows s.1
    pure (C, T0)) n (C, T0)

/-- newton_john.c:91-97 `mzed_combine8` -/
def combine8C (C : Mzed) (j : Nat) (Ts : Nat → Njt) (x : Nat → Nat) : Counted Mzed := ⟨mzedCombine8 C j Ts x, 0, 8 * C.ncols⟩

/-- newton_john.c:434-455 and 459-480 -/
def njGiantC (cb : Codebook) (A B : Mzed) (giantstep count end_ : Nat) (s : Mzed × (Nat → Njt)) : Counted (Mzed × (Nat → Njt)) :=
  forNC (fun i (s : Mzed × (Nat → Njt)) => do
    let Ts ← makeTablesC cb B (8 * i) 0 0 8 s.2
    let C ← forNC (fun babystep C =>
      let j := giantstep + babystep
      combine8C C j Ts (fun q => (Ts q).L (mzedReadElem A j (8 * i + q)).toNat)) count s.1
    pure (C, Ts)) end_ s

/-- newton_john.c:412-495 `_mzed_mul_newton_john(C,A,B)` -/
def mulNewtonJohnAccC (cb : Codebook) (mulBlocksize : Nat) (C A B : Mzed) : Counted Mzed :=
  if A.ff.degree > A.nrows then mulNaiveAccOpsC C A B
  else do
    let Ts := fun _ => njtInit B.ff B.fid B.ncols
    let end_ := A.ncols / 8
    let blocksize := njBlocksize mulBlocksize A.w A.nrows
    let steps := A.nrows / blocksize
    let s ← forNC (fun g s => njGiantC cb A B (g * blocksize) blocksize end_ s) steps (C, Ts)
    let giantstep := steps * blocksize
    let s ← njGiantC cb A B giantstep (A.nrows - giantstep) end_ s
    if A.ncols % 8 ≠ 0 then do
      let t ← mulNj0FromC cb s.1 A B (s.2 0) (8 * end_) (A.ncols - 8 * end_)
      pure t.1
    else pure s.1

/-- newton_john.c:498-501 `mzed_mul_newton_john(C,A,B)`, `C != NULL`; nothing is multiplied before `C` is known to be of the right size. -/
def mzedMulNewtonJohnC (cb : Codebook) (bs : Nat) (C A B : Mzed) : Option (Counted Mzed) :=
  (mzedMulInit? C A B true).map fun C => mulNewtonJohnAccC cb bs C A B

/-- newton_john.c:503-506 `mzed_addmul_newton_john(C,A,B)`, `C != NULL`. -/
def mzedAddmulNewtonJohnC (cb : Codebook) (bs : Nat) (C A B : Mzed) : Option (Counted Mzed) :=
  (mzedMulInit? C A B false).map fun C => mulNewtonJohnAccC cb bs C A B

end M4rie
