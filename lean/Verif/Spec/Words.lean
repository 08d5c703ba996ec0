import Verif.Model.Words

/-!
# Specification: which words a call has to do with, and what it does when nobody interferes
-/

namespace M4rie
open M4rie.Spec

namespace Handle
/-- the words of row `r` -/
def rowWords (A : Handle) (r : Nat) : Set Loc := {l | ∃ j < A.width, l = A.loc r j}
/-- the words of the matrix -/
def words (A : Handle) : Set Loc := {l | ∃ r < A.nrows, l ∈ A.rowWords r}
/-- the word that holds element `(r,c)` -/
def elemWord (A : Handle) (r c : Nat) : Loc := A.loc r (A.w * c / 64)
/-- the memory in which the words of `A` are those of `X` -/
noncomputable def put (A : Handle) (m : Mem) (X : Mzed) : Mem :=
  open Classical in fun l => if l ∈ A.words then X.words (l.row - A.row0) (l.word - A.block0) else m l
end Handle

namespace WCall

/-- the words a call may write -/
def writes : WCall → Set Loc
  | .readElem .. => ∅
  | .writeElem A r c _ | .addElem A r c _ => {A.elemWord r c}
  | .addRow A ar _ _ _ | .addMultipleOfRow A ar _ _ _ _ => A.rowWords ar
  | .rescaleRow A r _ _ => A.rowWords r
  | .rowSwap A a b => A.rowWords a ∪ A.rowWords b
  | .setUi A _ | .echelonizeNaive A _ => A.words
  | .mulNaive C _ _ | .addmulNaive C _ _ => C.words
  | .trsmUpperNaive _ B | .trsmLowerNaive _ B => B.words

/-- the words a call may read without writing them -/
def sources : WCall → Set Loc
  | .readElem A r c => {A.elemWord r c}
  | .addRow _ _ B br _ | .addMultipleOfRow _ _ B br _ _ => B.rowWords br
  | .mulNaive _ A B | .addmulNaive _ A B => A.words ∪ B.words
  | .trsmUpperNaive U _ => U.words
  | .trsmLowerNaive L _ => L.words
  | _ => ∅

/-- the words a call has to do with -/
def uses (c : WCall) : Set Loc := c.writes ∪ c.sources

/-- the arguments are legal: indices in range, dimensions as required, operands apart from the result -/
def Ok : WCall → Prop
  | .readElem A r c | .writeElem A r c _ | .addElem A r c _ => 0 < A.w ∧ r < A.nrows ∧ c < A.ncols
  | .addRow A ar B br s | .addMultipleOfRow A ar B br _ s =>
    0 < A.w ∧ ar < A.nrows ∧ br < B.nrows ∧ s < A.ncols ∧ B.ncols = A.ncols ∧ B.w = A.w ∧ Disjoint (A.rowWords ar) (B.rowWords br)
  | .rescaleRow A r s _ => 0 < A.w ∧ r < A.nrows ∧ s < A.ncols
  | .rowSwap A a b => a < A.nrows ∧ b < A.nrows
  | .setUi A _ => 0 < A.w
  | .mulNaive C A B | .addmulNaive C A B =>
    0 < C.w ∧ A.w = C.w ∧ B.w = C.w ∧ A.fid = B.fid ∧ C.fid = A.fid ∧ A.ncols = B.nrows ∧ C.nrows = A.nrows ∧ C.ncols = B.ncols ∧
      Disjoint C.words A.words ∧ Disjoint C.words B.words
  | .trsmUpperNaive T B | .trsmLowerNaive T B =>
    0 < B.w ∧ 0 < B.ncols ∧ T.w = B.w ∧ T.nrows = B.nrows ∧ T.ncols = B.nrows ∧ Disjoint B.words T.words
  | .echelonizeNaive A _ => 0 < A.w

/-- what a call returns and what the memory is afterwards, if nobody interferes: the functions of `Verif.Model` on the matrices behind the headers -/
noncomputable def effect : WCall → Mem → WRes × Mem
  | .readElem A r c, m => (.elem (mzedReadElem (A.view m) r c), m)
  | .writeElem A r c x, m => (.unit, A.put m (mzedWriteElem (A.view m) r c x))
  | .addElem A r c x, m => (.unit, A.put m (mzedAddElem (A.view m) r c x))
  | .addRow A ar B br s, m => (.unit, A.put m (mzedAddRow (A.view m) ar (B.view m) br s))
  | .rescaleRow A r s x, m => (.unit, A.put m (mzedRescaleRow (A.view m) r s x))
  | .addMultipleOfRow A ar B br x s, m => (.unit, A.put m (mzedAddMultipleOfRow (A.view m) ar (B.view m) br x s))
  | .rowSwap A a b, m => (.unit, A.put m (mzedRowSwap (A.view m) a b))
  | .setUi A x, m => (.unit, A.put m (mzedSetUi (A.view m) x))
  | .mulNaive C A B, m => (.unit, C.put m ((mzedMulNaive? (C.view m) (A.view m) (B.view m)).getD (C.view m)))
  | .addmulNaive C A B, m => (.unit, C.put m ((mzedAddmulNaive? (C.view m) (A.view m) (B.view m)).getD (C.view m)))
  | .trsmUpperNaive U B, m => (.unit, B.put m (mzedTrsmUpperLeftNaive (U.view m) (B.view m)))
  | .trsmLowerNaive L B, m => (.unit, B.put m (mzedTrsmLowerLeftNaive (L.view m) (B.view m)))
  | .echelonizeNaive A full, m => (.rank (mzedEchelonizeNaive (A.view m) full).2, A.put m (mzedEchelonizeNaive (A.view m) full).1)

/-- the calls one after the other, nobody interfering -/
noncomputable def serial : List WCall → Mem → List WRes × Mem
  | [], m => ([], m)
  | c :: cs, m => ((c.effect m).1 :: (serial cs (c.effect m).2).1, (serial cs (c.effect m).2).2)

/-- the words the calls of a thread may write, and have to do with -/
def allWrites (cs : List WCall) : Set Loc := {l | ∃ c ∈ cs, l ∈ c.writes}
def allUses (cs : List WCall) : Set Loc := {l | ∃ c ∈ cs, l ∈ c.uses}

end WCall

namespace WProg
variable {α : Type}

/-- the calls the thread may make, depending on the results it gets -/
def calls : WProg α → Set WCall
  | .ret _ => ∅
  | .call c k => {x | x = c ∨ ∃ r, x ∈ (k r).calls}

/-- the words it may write, and may have to do with -/
def writes (p : WProg α) : Set Loc := {l | ∃ c ∈ p.calls, l ∈ c.writes}
def uses (p : WProg α) : Set Loc := {l | ∃ c ∈ p.calls, l ∈ c.uses}

/-- its result and the memory afterwards, nobody interfering -/
noncomputable def serial : WProg α → Mem → α × Mem
  | .ret a, m => (a, m)
  | .call c k, m => (k (c.effect m).1).serial (c.effect m).2

end WProg

/-- what is expected of M4RI: `mzd_set_ui(A,0)` and `mzd_row_swap(A,a,b)` touch no other words than those of `A`, resp. of the two rows, and do
what `Verif.Model.M4ri` says -/
structure WordLib.OK (lib : WordLib) : Prop where
  clearKeeps : ∀ A, (lib.clear A).Keeps A.words A.words
  clear : ∀ A m, ((lib.clear A).alone m).2 = A.put m { A.view m with words := mzdClear A.nrows (A.w * A.ncols) (A.view m).words }
  swapKeeps : ∀ A a b, a < A.nrows → b < A.nrows → (lib.rowSwap A a b).Keeps (A.rowWords a ∪ A.rowWords b) (A.rowWords a ∪ A.rowWords b)
  swap : ∀ A a b m, a < A.nrows → b < A.nrows → ((lib.rowSwap A a b).alone m).2 = A.put m (mzedRowSwap (A.view m) a b)

end M4rie
