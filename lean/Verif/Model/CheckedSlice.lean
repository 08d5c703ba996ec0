import Verif.Model.CheckedRec
import Verif.Model.CheckedConv
import Verif.Model.TrsmRec

/-!
# Sliced matrices with every access checked: Karatsuba multiplication, the dispatch of multiplication, triangular solving

A matrix over GF(2) is carried with its dimensions, so that M4RI's preconditions can be checked at each call: `mzd_add` needs
three matrices of the same dimensions, `mzd_mul` and `mzd_addmul` matching ones, a window starts at a word boundary and lies
inside its parent, an entry that is read exists.  An array of matrices has a length, a subscript must be below it.
-/

namespace M4rie.Chk

/-- an `mzd_t` (M4RI) with its dimensions -/
structure Pl where
  nr : Nat
  nc : Nat
  w : Nat → Nat → Word

/-- an `mzd_t **`: `len` pointers to matrices of the same dimensions (mzd_slice.h:51-58 the member `x`) -/
structure Arr where
  len : Nat
  nr : Nat
  nc : Nat
  x : Nat → Nat → Nat → Word

/-- the member `x` of an `mzd_slice_t` (mzd_slice.h:51-58): `depth` of the 16 pointers are valid -/
def arr (S : Slice) : Arr := ⟨S.depth, S.nrows, S.ncols, S.x⟩

/-- `X[k]` -/
def Arr.get (X : Arr) (k : Nat) : Option Pl := (need (k < X.len)).bind fun _ => some ⟨X.nr, X.nc, X.x k⟩

/-- the matrix `*X[k]` becomes `P` -/
def Arr.put (X : Arr) (k : Nat) (P : Pl) : Option Arr :=
  (need (k < X.len ∧ P.nr = X.nr ∧ P.nc = X.nc)).bind fun _ => some { X with x := setSlice X.x k P.w }

/-- M4RI `mzd_add(C,A,B)` dies unless the dimensions agree. -/
def padd (C A B : Pl) : Option Pl :=
  (need (A.nr = B.nr ∧ A.nc = B.nc ∧ C.nr = A.nr ∧ C.nc = A.nc)).bind fun _ => some { C with w := mzdAdd A.nr A.nc C.w A.w B.w }

/-- M4RI `mzd_mul(C,A,B,0)` dies unless the dimensions fit. -/
def pmul (C A B : Pl) : Option Pl :=
  (need (A.nc = B.nr ∧ C.nr = A.nr ∧ C.nc = B.nc)).bind fun _ => some { C with w := mzdMul A.nr A.nc B.nc C.w A.w B.w }

/-- M4RI `mzd_addmul(C,A,B,0)`. -/
def paddmul (C A B : Pl) : Option Pl :=
  (need (A.nc = B.nr ∧ C.nr = A.nr ∧ C.nc = B.nc)).bind fun _ => some { C with w := mzdAddmul A.nr A.nc B.nc C.w A.w B.w }

/-- `mzd_add(X[t],X[t],A)` -/
def addAt (X : Arr) (t : Nat) (A : Pl) : Option Arr := (X.get t).bind fun x => (padd x x A).bind fun x => X.put t x

/-- mzd_ptr.h:38-53 `_mzd_ptr_add_modred(ff,A,X,t)`; `pow_gen` has `2*degree-1` entries; `1<<i` is an `int`. -/
def ptrAddModred (ff : Option Gf2e) (A : Pl) (X : Arr) (t : Nat) : Option Arr :=
  if mzdIsZero A.nr A.nc A.w then some X else
  match ff with
  | none => addAt X t A
  | some ff =>
    if t < ff.degree then addAt X t A
    else (need (t < 2 * ff.degree - 1)).bind fun _ =>
      forC (fun i X => (int? (2 ^ i)).bind fun _ => if ff.powGen t &&& twoPow i ≠ 0#64 then addAt X i A else some X) ff.degree X

/-- mzd_ptr.h:64-81 `_mzd_ptr_add_to_all(ff,A,X,n,t,..)`. -/
def ptrAddToAll (ff : Option Gf2e) (A : Pl) (ts : List Nat) (X : Arr) : Option Arr :=
  match ff with
  | some ff => ts.foldlM (fun X t => ptrAddModred (some ff) A X t) X
  | none => ts.foldlM (fun X t => addAt X t A) X

/-- The operand of a product in karatsuba.c (`karaOperand`), computed in the temporary `T`; `mzd_sum`:
m4ri_functions.h:80-95.  As in the total model the old contents of the temporaries are not tracked. -/
def karaOperand (T : Pl) (A : Arr) : List Nat → Option Pl
  | [] => none
  | [i] => A.get i
  | i :: j :: l => (A.get i).bind fun a => (A.get j).bind fun b => (padd T a b).bind fun T =>
    l.foldlM (fun T k => (A.get k).bind fun c => padd T T c) T

/-- One statement of a routine in karatsuba.c; the temporaries `t0`, `t1`, `t2` have the dimensions of `X`, `A`, `B`
(karatsuba.c:33-35): those of `a0`, `b0`. -/
def karaTerm (ff : Option Gf2e) (A B : Arr) (X : Arr) (t : KaraTerm) : Option Arr :=
  (karaOperand ⟨A.nr, A.nc, fun _ _ => 0#64⟩ A t.as).bind fun a =>
  (karaOperand ⟨B.nr, B.nc, fun _ _ => 0#64⟩ B t.bs).bind fun b =>
  (pmul ⟨A.nr, B.nc, fun _ _ => 0#64⟩ a b).bind fun p => ptrAddToAll ff p t.targets X

/-- karatsuba.c: the statements one after another. -/
def karaRun (terms : List KaraTerm) (ff : Option Gf2e) (X A B : Arr) : Option Arr := terms.foldlM (karaTerm ff A B) X

/-- karatsuba.c:4-23 `_mzd_ptr_addmul_karatsuba2`. -/
def kara2Run (ff : Option Gf2e) (X A B : Arr) : Option Arr :=
  (A.get 0).bind fun a0 => (A.get 1).bind fun a1 => (B.get 0).bind fun b0 => (B.get 1).bind fun b1 =>
  (X.get 1).bind fun x1 =>
  (padd ⟨a0.nr, a0.nc, fun _ _ => 0#64⟩ a0 a1).bind fun a =>
  (padd ⟨b0.nr, b0.nc, fun _ _ => 0#64⟩ b0 b1).bind fun b =>
  (paddmul x1 a b).bind fun x1 => (X.put 1 x1).bind fun X => karaRun karaTerms2 ff X A B

/-- karatsuba.c the routines `_mzd_ptr_addmul_karatsuba2` .. `_mzd_ptr_addmul_karatsuba16`; they start by fetching all `d`
pointers of `A` and `B` (karatsuba.c:26-32). -/
def ptrAddmulKaratsuba (d : Nat) (ff : Option Gf2e) (X A B : Arr) : Option Arr :=
  (need (d ≤ A.len ∧ d ≤ B.len)).bind fun _ =>
  match d with
  | 2 => kara2Run ff X A B
  | 3 => karaRun karaTerms3 ff X A B
  | 4 => karaRun karaTerms4 ff X A B
  | 5 => karaRun karaTerms5 ff X A B
  | 6 => karaRun karaTerms6 ff X A B
  | 7 => karaRun karaTerms7 ff X A B
  | 8 => karaRun karaTerms8 ff X A B
  | 9 => karaRun karaTerms9 ff X A B
  | 10 => karaRun karaTerms10 ff X A B
  | 11 => karaRun karaTerms11 ff X A B
  | 12 => karaRun karaTerms12 ff X A B
  | 13 => karaRun karaTerms13 ff X A B
  | 14 => karaRun karaTerms14 ff X A B
  | 15 => karaRun karaTerms15 ff X A B
  | 16 => karaRun karaTerms16 ff X A B
  | _ => none

/-- mzd_slice.c:82-98 `_mzd_slice_addmul_naive(C,A,B)`, `C` given. -/
def sliceAddmulNaive (C A B : Slice) : Option Slice :=
  (forC (fun i X => forC (fun j X =>
      ((arr A).get i).bind fun a => ((arr B).get j).bind fun b =>
      (pmul ⟨A.nrows, B.ncols, fun _ _ => 0#64⟩ a b).bind fun t0 => ptrAddModred (some A.ff) t0 X (i + j))
    A.ff.degree X) A.ff.degree (arr C)).map fun X => { C with x := X.x }

/-- mzd_slice.h:624-647 `_mzd_slice_addmul_karatsuba(C,A,B)`, `C` given. -/
def sliceAddmulKara (C A B : Slice) : Option Slice :=
  if 2 ≤ A.ff.degree ∧ A.ff.degree ≤ 16 then
    (ptrAddmulKaratsuba A.ff.degree (some A.ff) (arr C) (arr A) (arr B)).map fun X => { C with x := X.x }
  else sliceAddmulNaive C A B

/-- mzd_slice.h:661-670 `mzd_slice_mul_karatsuba(C,A,B)`, `C` given (also `mzd_slice_mul`). -/
def sliceMulKaratsuba (C A B : Slice) : Option Slice :=
  if A.ncols ≠ B.nrows ∨ A.fid ≠ B.fid then none
  else if C.fid ≠ A.fid ∨ C.nrows ≠ A.nrows ∨ C.ncols ≠ B.ncols then none
  else sliceAddmulKara (mzdSliceSetUi C 0#64) A B

/-- mzd_slice.h:684-691 `mzd_slice_addmul_karatsuba(C,A,B)` (also `mzd_slice_addmul`). -/
def sliceAddmulKaratsuba (C A B : Slice) : Option Slice :=
  if A.ncols ≠ B.nrows ∨ A.fid ≠ B.fid then none
  else if C.fid ≠ A.fid ∨ C.nrows ≠ A.nrows ∨ C.ncols ≠ B.ncols then none
  else sliceAddmulKara C A B

/-- mzd_slice.c:43-55 `mzd_slice_addmul_scalar(C,a,B)`. -/
def sliceAddmulScalar (dbg : Bool) (C : Slice) (a : Word) (B : Slice) : Option Slice :=
  (assert? dbg (C.fid = B.fid ∧ C.nrows = B.nrows ∧ C.ncols = B.ncols)).bind fun _ =>
  (forC (fun i X => (int? (2 ^ i)).bind fun _ => if a &&& twoPow i ≠ 0#64 then
    forC (fun j X => ((arr B).get j).bind fun b => ptrAddModred (some B.ff) b X (i + j)) B.depth X else some X) B.ff.degree (arr C)).map
    fun X => { C with x := X.x }

/-- mzd_slice.c:25-41 `mzd_slice_mul_scalar(C,a,B)`, `C` given. -/
def sliceMulScalar (dbg : Bool) (C : Slice) (a : Word) (B : Slice) : Option Slice := sliceAddmulScalar dbg (mzdSliceSetUi C 0#64) a B

/-! ### packed multiplication -/

/-- conversion.h:148-165 `_mzed_addmul_karatsuba(C,A,B)`, `C` given. -/
def addmulKara (dbg : Bool) (C A B : Mzed) : Option Mzed :=
  (sliceNew dbg C).bind fun Cs => (sliceNew dbg A).bind fun As => (sliceNew dbg B).bind fun Bs =>
  (sliceAddmulKara Cs As Bs).bind fun Cs => cling C Cs

/-- mzed.c:102-108 `_mzed_mul(C,A,B)`. -/
def mulRaw (dbg : Bool) (env : MulEnv) (C A B : Mzed) : Option Mzed :=
  if A.nrows ≥ 512 ∧ A.ncols ≥ 512 ∧ B.ncols ≥ 512 then addmulKara dbg C A B
  else mulStrassenF (mulNewtonJohn dbg env.cb env.bs) (strassenCutoff env.sq env.l2 A.ff.degree A.w) (strassenDepth A B) C A B

/-- mzed.c:110-116 `_mzed_addmul(C,A,B)`. -/
def addmulRaw (dbg : Bool) (env : MulEnv) (C A B : Mzed) : Option Mzed :=
  if A.nrows ≥ 512 ∧ A.ncols ≥ 512 ∧ B.ncols ≥ 512 then addmulKara dbg C A B
  else addmulStrassenF (mulNewtonJohn dbg env.cb env.bs) (strassenCutoff env.sq env.l2 A.ff.degree A.w) (strassenDepth A B) C A B

/-- mzed.c:90-94 `mzed_mul(C,A,B)`, `C` given. -/
def mulM (dbg : Bool) (env : MulEnv) (C A B : Mzed) : Option Mzed := (mulInit C A B true).bind fun C => mulRaw dbg env C A B

/-- mzed.c:96-100 `mzed_addmul(C,A,B)`. -/
def addmulM (dbg : Bool) (env : MulEnv) (C A B : Mzed) : Option Mzed := (mulInit C A B false).bind fun C => addmulRaw dbg env C A B

/-! ### windows and entries of slices -/

/-- mzd_slice.h:480-492 `mzd_slice_init_window(A,lowr,lowc,highr,highc)`. -/
def swindow (A : Slice) (lowr lowc highr highc : Nat) : Option Slice :=
  (need (lowc % 64 = 0 ∧ lowr ≤ highr ∧ highr ≤ A.nrows ∧ lowc ≤ highc ∧ highc ≤ A.ncols)).bind fun _ =>
  some (mzdSliceWindow A lowr lowc highr highc)

/-- run `f` on the window of `A` (mzd_slice.h:480-492) and keep its effect on the shared memory -/
def onSWindow (A : Slice) (lr lc hr hc : Nat) (f : Slice → Option Slice) : Option Slice :=
  (swindow A lr lc hr hc).bind fun W => (f W).map fun W => { A with x := fun k => mzdWindowWrite (A.x k) lr lc (W.x k) }

/-- mzd_slice.h:186-192 `mzd_slice_read_elem(A,row,col)`; M4RI: `mzd_read_bit` needs an entry of the matrix. -/
def sliceReadElem (A : Slice) (row col : Nat) : Option Word :=
  (forC (fun i (ret : Word) => (need (row < A.nrows ∧ col < A.ncols)).bind fun _ =>
    (shl (if bitAt (A.x i) row col then 1#64 else 0#64) i).bind fun b => some (ret ||| b)) A.depth 0#64)

/-- mzd_slice.h:227-232 `mzd_slice_write_elem(A,row,col,elem)`. -/
def sliceWriteElem (A : Slice) (row col : Nat) (elem : Word) : Option Slice :=
  (need (row < A.nrows ∧ col < A.ncols)).bind fun _ => some (mzdSliceWriteElem A row col elem)

/-! ### triangular solving -/

/-- trsm.c:34-36, 48-50, newton_john.c:577-579, 602-604 the assertions. -/
def strsmAssert (dbg : Bool) (L B : Slice) : Option Unit := assert? dbg (L.fid = B.fid ∧ L.nrows = L.ncols ∧ B.nrows = L.ncols)

/-- trsm.c:33-45 `mzd_slice_trsm_upper_left_naive(U,B)`. -/
def strsmUpperNaive (dbg : Bool) (U B : Slice) : Option Slice :=
  (strsmAssert dbg U B).bind fun _ =>
  (clingNew U).bind fun Ue => (clingNew B).bind fun Be => (trsmUpperNaive dbg Ue Be).bind fun Be => slice dbg B Be

/-- trsm.c:47-60 `mzd_slice_trsm_lower_left_naive(L,B)`. -/
def strsmLowerNaive (dbg : Bool) (L B : Slice) : Option Slice :=
  (strsmAssert dbg L B).bind fun _ =>
  (clingNew L).bind fun Le => (clingNew B).bind fun Be => (trsmLowerNaive dbg Le Be).bind fun Be => slice dbg B Be

/-- newton_john.c:576-599 `mzd_slice_trsm_lower_left_newton_john(L,B)`. -/
def strsmLowerNj (dbg : Bool) (cb : Codebook) (L B : Slice) : Option Slice :=
  (strsmAssert dbg L B).bind fun _ =>
  if 2 ^ L.ff.degree ≥ L.nrows then strsmLowerNaive dbg L B
  else (clingNew B).bind fun Be =>
    let n := B.nrows
    let nE := Be.nrows
    (forC (fun i (s : Mzed × Njt) =>
      (sliceReadElem L i i).bind fun x => (inv L.ff x).bind fun y => (rescaleRow dbg s.1 i 0 y).bind fun Be =>
      (makeTable dbg cb s.2 Be i 0).bind fun T0 =>
      (forC (fun d Be => (sliceReadElem L (i + 1 + d) i).bind fun v => (lookup T0 v).bind fun x => combine Be (i + 1 + d) T0.T x) (nE - (i + 1)) Be).bind
        fun Be => some (Be, T0)) n (Be, njtInit B.ff B.fid B.ncols)).bind fun r => slice dbg B r.1

/-- newton_john.c:601-624 `mzd_slice_trsm_upper_left_newton_john(U,B)`. -/
def strsmUpperNj (dbg : Bool) (cb : Codebook) (U B : Slice) : Option Slice :=
  (strsmAssert dbg U B).bind fun _ =>
  if 2 ^ U.ff.degree ≥ U.nrows then strsmUpperNaive dbg U B
  else (clingNew B).bind fun Be =>
    let n := B.nrows
    (forC (fun t (s : Mzed × Njt) =>
      let i := n - 1 - t
      (sliceReadElem U i i).bind fun x => (inv U.ff x).bind fun y => (rescaleRow dbg s.1 i 0 y).bind fun Be =>
      (makeTable dbg cb s.2 Be i 0).bind fun T0 =>
      (forC (fun j Be => (sliceReadElem U j i).bind fun v => (lookup T0 v).bind fun x => combine Be j T0.T x) i Be).bind
        fun Be => some (Be, T0)) n (Be, njtInit Be.ff Be.fid Be.ncols)).bind fun r => slice dbg B r.1

/-- mzed_intro.inl:1-23 and mzd_slice_intro.inl:1-23: the operations the template trsm.inl is instantiated with. -/
structure TrsmOps (τ : Type) where
  nrows : τ → Nat
  ncols : τ → Nat
  fid : τ → Nat
  window : τ → Nat → Nat → Nat → Nat → Option τ
  onWindow : τ → Nat → Nat → Nat → Nat → (τ → Option τ) → Option τ
  addmul : τ → τ → τ → Option τ
  lowerNj : τ → τ → Option τ
  upperNj : τ → τ → Option τ

/-- trsm.inl:9-50 `_matrix_trsm_lower_left(L,B,cutoff)`: the five windows are made first (their checks depend on the dimensions only);
`MAX(c - c%radix, radix)`. -/
def trsmLowerF {τ : Type} (dbg : Bool) (ops : TrsmOps τ) (cutoff : Int) : Nat → τ → τ → Option τ
  | 0, _, _ => none
  | fuel + 1, L, B =>
    (assert? dbg (ops.fid L = ops.fid B ∧ ops.nrows L = ops.ncols L ∧ ops.nrows B = ops.ncols L)).bind fun _ =>
    if (ops.nrows L : Int) ≤ cutoff ∨ (ops.ncols B : Int) ≤ cutoff then ops.lowerNj L B
    else
      let c := trsmSplit (ops.nrows L)
      let n := ops.nrows B
      let m := ops.ncols B
      (ops.window B 0 0 c m).bind fun _ =>
      (ops.window B c 0 n m).bind fun _ =>
      (ops.window L 0 0 c c).bind fun L00 =>
      (ops.window L c 0 n c).bind fun L10 =>
      (ops.window L c c n n).bind fun L11 =>
      (ops.onWindow B 0 0 c m fun B0 => trsmLowerF dbg ops cutoff fuel L00 B0).bind fun B =>
      (ops.onWindow B c 0 n m fun B1 => (ops.window B 0 0 c m).bind fun B0 => ops.addmul B1 L10 B0).bind fun B =>
      ops.onWindow B c 0 n m fun B1 => trsmLowerF dbg ops cutoff fuel L11 B1

/-- trsm.inl:53-94 `_matrix_trsm_upper_left(U,B,cutoff)`. -/
def trsmUpperF {τ : Type} (dbg : Bool) (ops : TrsmOps τ) (cutoff : Int) : Nat → τ → τ → Option τ
  | 0, _, _ => none
  | fuel + 1, U, B =>
    (assert? dbg (ops.fid U = ops.fid B ∧ ops.nrows U = ops.ncols U ∧ ops.nrows B = ops.ncols U)).bind fun _ =>
    if (ops.nrows U : Int) ≤ cutoff ∨ (ops.ncols B : Int) ≤ cutoff then ops.upperNj U B
    else
      let c := trsmSplit (ops.nrows U)
      let n := ops.nrows B
      let m := ops.ncols B
      (ops.window B 0 0 c m).bind fun _ =>
      (ops.window B c 0 n m).bind fun _ =>
      (ops.window U 0 0 c c).bind fun U00 =>
      (ops.window U 0 c c n).bind fun U01 =>
      (ops.window U c c n n).bind fun U11 =>
      (ops.onWindow B c 0 n m fun B1 => trsmUpperF dbg ops cutoff fuel U11 B1).bind fun B =>
      (ops.onWindow B 0 0 c m fun B0 => (ops.window B c 0 n m).bind fun B1 => ops.addmul B0 U01 B1).bind fun B =>
      ops.onWindow B 0 0 c m fun B0 => trsmUpperF dbg ops cutoff fuel U00 B0

/-- mzed_intro.inl:1-23 the packed instance. -/
def mzedTrsmOps (dbg : Bool) (env : MulEnv) : TrsmOps Mzed where
  nrows := Mzed.nrows
  ncols := Mzed.ncols
  fid := Mzed.fid
  window := window
  onWindow := onWindow
  addmul := addmulM dbg env
  lowerNj := trsmLowerNj dbg env.cb
  upperNj := trsmUpperNj dbg env.cb

/-- mzd_slice_intro.inl:1-23 the sliced instance. -/
def sliceTrsmOps (dbg : Bool) (cb : Codebook) : TrsmOps Slice where
  nrows := Slice.nrows
  ncols := Slice.ncols
  fid := Slice.fid
  window := swindow
  onWindow := onSWindow
  addmul := sliceAddmulKaratsuba
  lowerNj := strsmLowerNj dbg cb
  upperNj := strsmUpperNj dbg cb

/-- trsm.c:62-64 `_mzed_trsm_lower_left(L,B,cutoff)`. -/
def trsmLower (dbg : Bool) (env : MulEnv) (L B : Mzed) (cutoff : Int) : Option Mzed := trsmLowerF dbg (mzedTrsmOps dbg env) cutoff (B.nrows + 1) L B

/-- trsm.c:62-64 `_mzed_trsm_upper_left(U,B,cutoff)`. -/
def trsmUpper (dbg : Bool) (env : MulEnv) (U B : Mzed) (cutoff : Int) : Option Mzed := trsmUpperF dbg (mzedTrsmOps dbg env) cutoff (B.nrows + 1) U B

/-- trsm.c:66-68 `_mzd_slice_trsm_lower_left(L,B,cutoff)`. -/
def strsmLower (dbg : Bool) (cb : Codebook) (L B : Slice) (cutoff : Int) : Option Slice := trsmLowerF dbg (sliceTrsmOps dbg cb) cutoff (B.nrows + 1) L B

/-- trsm.c:66-68 `_mzd_slice_trsm_upper_left(U,B,cutoff)`. -/
def strsmUpper (dbg : Bool) (cb : Codebook) (U B : Slice) (cutoff : Int) : Option Slice := trsmUpperF dbg (sliceTrsmOps dbg cb) cutoff (B.nrows + 1) U B

end M4rie.Chk
