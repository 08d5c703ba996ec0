import Verif.Model.Echelon

/-! # Newton-John tables and the multiplication built on them -/

namespace M4rie

/-- M4RI `m4ri_codebook[e]` (external): Gray code order `ord` and increments `inc`. -/
structure Codebook where
  ord : Nat → Nat
  inc : Nat → Nat

/-- newton_john.h:37-41 `njt_mzed_t`. -/
structure Njt where
  L : Nat → Nat
  M : Mzed
  T : Mzed

/-- newton_john.c:32-38 `njt_mzed_init(ff,ncols)` (calloc'ed memory). -/
def njtInit (ff : Gf2e) (fid ncols : Nat) : Njt :=
  ⟨fun _ => 0, mzedInit ff fid ff.degree ncols, mzedInit ff fid (2 ^ ff.degree) ncols⟩

/-- newton_john.c:191-202 the fallthrough `switch (homeblock)`: offsets `k` of the words `*(ti-k)`
that are cleared, in order (case 3 and case 2 both clear `ti-2`). -/
def staleOffsets : Nat → List Nat
  | 0 => []
  | 1 => [1]
  | 2 => [2, 1]
  | 3 => [2, 2, 1]
  | 4 => [3, 2, 2, 1]
  | 5 => [4, 3, 2, 2, 1]
  | 6 => [5, 4, 3, 2, 2, 1]
  | 7 => [6, 5, 4, 3, 2, 2, 1]
  | _ => [7, 6, 5, 4, 3, 2, 2, 1]

/-- newton_john.c:179-226 compute row `ti` of the table from the previous row `t1` and row `m` of
`M`.  The eight-fold unrolled loop handles `8*((wide-1)/8)` words, the final switch the remaining
ones, the last of them masked. -/
def njRow (homeblock width : Nat) (hi : Word) (m t1 ti : Nat → Word) : Nat → Word :=
  let wide := width - homeblock
  let row := (staleOffsets homeblock).foldl (fun row k => setWord row (homeblock - k) 0#64) ti
  let n8 := 8 * ((wide - 1) / 8)
  let row := forN (fun j row => setWord row (homeblock + j) (m (homeblock + j) ^^^ t1 (homeblock + j))) n8 row
  let row := forN (fun j row =>
    setWord row (homeblock + n8 + j) (m (homeblock + n8 + j) ^^^ t1 (homeblock + n8 + j))) (wide - n8 - 1) row
  setWord row (homeblock + (wide - 1)) ((m (homeblock + (wide - 1)) ^^^ t1 (homeblock + (wide - 1))) &&& hi)

/-- newton_john.c:178-227 one iteration (`i = k+1`) of the table loop. -/
def njStep (cb : Codebook) (M : Mzed) (homeblock : Nat) (k : Nat) (s : (Nat → Nat) × Mzed) : (Nat → Nat) × Mzed :=
  let L := s.1
  let T := s.2
  let i := k + 1
  let rowneeded := cb.inc (i - 1)
  let id := cb.ord i
  let row := njRow homeblock M.width M.highBitmask (M.words rowneeded) (T.words (i - 1)) (T.words i)
  (fun x => if x = id then i else L x, { T with words := setRow T.words i row })

/-- newton_john.c:156-233 `mzed_make_table(T,A,r,c)` with `T != NULL`. -/
def mzedMakeTable (cb : Codebook) (T : Njt) (A : Mzed) (r c : Nat) : Njt :=
  let M := { T.M with words := mzdClear T.M.nrows T.M.bitCols T.M.words }
  let degree := A.ff.degree
  let homeblock := A.w * c / 64
  let M := forN (fun i M => mzedAddMultipleOfRow M i A r (twoPow i) c) degree M
  let s := forN (njStep cb M homeblock) (T.T.nrows - 1) (T.L, T.T)
  ⟨s.1, M, s.2⟩

/-- tables `q = 0 … n-1` for rows `r+q` from columns `c + dc*q` on. -/
def makeTables (cb : Codebook) (A : Mzed) (r c dc n : Nat) (Ts : Nat → Njt) : Nat → Njt :=
  forN (fun q Ts k => if k = q then mzedMakeTable cb (Ts q) A (r + q) (c + dc * q) else Ts k) n Ts

/-- M4RI `mzd_combine(C,cr,sb,C,cr,sb,B,br,sb)` (external contract): add row `br` of `B` to row `cr`
of `C`, bits `64*sb ≤ p < nc`. -/
def mzdCombine (nc : Nat) (C : Nat → Nat → Word) (cr : Nat) (B : Nat → Nat → Word) (br sb : Nat) : Nat → Nat → Word :=
  ofBits fun i p => if i = cr ∧ 64 * sb ≤ p ∧ p < nc then (bitAt C cr p).xor (bitAt B br p) else bitAt C i p

/-- `mzd_combine(C->x,j,0,C->x,j,0,T->T->x,x,0)` -/
def mzedCombine (C : Mzed) (j : Nat) (T : Mzed) (x : Nat) : Mzed :=
  { C with words := mzdCombine C.bitCols C.words j T.words x 0 }

/-- XOR of the words `b` of the selected table rows `0 … n-1`. -/
def xorTables (Ts : Nat → Njt) (x : Nat → Nat) (b : Nat) : Nat → Word
  | 0 => 0#64
  | n + 1 => xorTables Ts x b n ^^^ (Ts n).T.words (x n) b

/-- newton_john.c:91-97 `mzed_combine8` (with M4RI's `_mzd_combine_8` on `width` whole words). -/
def mzedCombine8 (C : Mzed) (j : Nat) (Ts : Nat → Njt) (x : Nat → Nat) : Mzed :=
  let row := fun b => if b < C.width then C.words j b ^^^ xorTables Ts x b 8 else C.words j b
  { C with words := setRow C.words j row }

/-- newton_john.h:227-229 `mzed_process_rows`, `mzed_process_rows2`, `mzed_process_rows3`, `mzed_process_rows4`, `mzed_process_rows5`, `mzed_process_rows6`
(newton_john.h:245-336), i.e. M4RI's
`mzd_process_rows{,2,…,6}` (external contract): in each row the `n` consecutive elements at `startcol`
are read with a single `mzd_read_bits(…, n*w)` and the selected table rows are added to all words
from the one containing `startcol` on. -/
def mzedProcessRows (M : Mzed) (startrow endrow startcol : Nat) (n : Nat) (Ts : Nat → Njt) : Mzed :=
  forN (fun k M =>
    let r := startrow + k
    let x := fun q => (Ts q).L (mzedReadElem M r (startcol + q)).toNat
    let block := startcol * M.w / 64
    let row := fun b => if block ≤ b ∧ b < M.width then M.words r b ^^^ xorTables Ts x b n else M.words r b
    { M with words := setRow M.words r row }) (endrow - startrow) M

/-- newton_john.c:399-410 `_mzed_mul_newton_john0(C,A,B)`: `C += A*B` with one table. -/
def mulNj0From (cb : Codebook) (C A B : Mzed) (T0 : Njt) (from_ n : Nat) : Mzed × Njt :=
  forN (fun k (s : Mzed × Njt) =>
    let i := from_ + k
    let T0 := mzedMakeTable cb s.2 B i 0
    (forN (fun j C => mzedCombine C j T0.T (T0.L (mzedReadElem A j i).toNat)) A.nrows s.1, T0)) n (C, T0)

def mzedMulNewtonJohn0 (cb : Codebook) (C A B : Mzed) : Mzed :=
  (mulNj0From cb C A B (njtInit B.ff B.fid B.ncols) 0 A.ncols).1

/-- newton_john.c:434-455 and 459-480: one giant step: `end` groups of 8 tables, applied to the rows
`giantstep … giantstep+count-1`. -/
def njGiant (cb : Codebook) (A B : Mzed) (giantstep count end_ : Nat) (s : Mzed × (Nat → Njt)) : Mzed × (Nat → Njt) :=
  forN (fun i (s : Mzed × (Nat → Njt)) =>
    let Ts := makeTables cb B (8 * i) 0 0 8 s.2
    (forN (fun babystep C =>
      let j := giantstep + babystep
      mzedCombine8 C j Ts (fun q => (Ts q).L (mzedReadElem A j (8 * i + q)).toNat)) count s.1, Ts)) end_ s

/-- newton_john.c:421-428 rows per giant step: `1<<30` for few rows, otherwise
`__M4RI_MUL_BLOCKSIZE / w`. -/
def njBlocksize (mulBlocksize w nrows : Nat) : Nat := if nrows ≥ w * mulBlocksize then mulBlocksize / w else 2 ^ 30

/-- newton_john.c:412-495 `_mzed_mul_newton_john(C,A,B)`: `C += A*B`.  `mulBlocksize` is M4RI's
`__M4RI_MUL_BLOCKSIZE`; the loop over giant steps runs `nrows / blocksize` times. -/
def mzedMulNewtonJohnAcc (cb : Codebook) (mulBlocksize : Nat) (C A B : Mzed) : Mzed :=
  if A.ff.degree > A.nrows then mzedMulNaiveAcc C A B
  else
    let Ts := fun _ => njtInit B.ff B.fid B.ncols
    let end_ := A.ncols / 8
    let blocksize := njBlocksize mulBlocksize A.w A.nrows
    let steps := A.nrows / blocksize
    let s := forN (fun g s => njGiant cb A B (g * blocksize) blocksize end_ s) steps (C, Ts)
    let giantstep := steps * blocksize
    let s := njGiant cb A B giantstep (A.nrows - giantstep) end_ s
    if A.ncols % 8 ≠ 0 then (mulNj0From cb s.1 A B (s.2 0) (8 * end_) (A.ncols - 8 * end_)).1 else s.1

/-- newton_john.c:498-501 `mzed_mul_newton_john(C,A,B)`, `C != NULL`. -/
def mzedMulNewtonJohn? (cb : Codebook) (bs : Nat) (C A B : Mzed) : Option Mzed :=
  (mzedMulInit? C A B true).map fun C => mzedMulNewtonJohnAcc cb bs C A B

/-- newton_john.c:503-506 `mzed_addmul_newton_john(C,A,B)`, `C != NULL`. -/
def mzedAddmulNewtonJohn? (cb : Codebook) (bs : Nat) (C A B : Mzed) : Option Mzed :=
  (mzedMulInit? C A B false).map fun C => mzedMulNewtonJohnAcc cb bs C A B

end M4rie
