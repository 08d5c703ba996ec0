import Verif.Model.Entry
import Verif.Spec.History
import Verif.Spec.Rep

/-!
# Programs calling the library

The variables of a program point to matrices; a call is dispatched to the function for the representation of its operands.  This is the only module
of the model that has no counterpart in the repository: it plays the role of the caller.  Every branch is one call of a modelled function.
-/

namespace M4rie
open M4rie.Spec

inductive Obj where
  /-- mzed.h:58-66 a `mzed_t *` -/
  | packed (A : Mzed)
  /-- mzd_slice.h:51-58 a `mzd_slice_t *` -/
  | sliced (S : Slice)

abbrev Pool := Nat → Option Obj

def Pool.set (c : Pool) (d : Nat) (o : Option Obj) : Pool := fun k => if k = d then o else c k

/-- the configuration of the library and of M4RI -/
structure Lib where
  ff : Gf2e
  fid : Nat
  mulEnv : MulEnv
  pleEnv : PleEnv
  optK : Nat
  smallNj : Bool
  medium : Nat → Nat → Bool

def put {ff : Gf2e} (c : Pool) (d : Nat) (o : Obj) : Option (Pool × Out (Elem ff)) := some (c.set d (some o), .unit)
def putP {ff : Gf2e} (c : Pool) (d : Nat) (o : Option Mzed) : Option (Pool × Out (Elem ff)) := o.map fun A => (c.set d (some (.packed A)), .unit)
def putS {ff : Gf2e} (c : Pool) (d : Nat) (o : Option Slice) : Option (Pool × Out (Elem ff)) := o.map fun A => (c.set d (some (.sliced A)), .unit)

/-- a word read from a matrix as a field element (`none`: it is not one) -/
def elemOf (ff : Gf2e) (x : Word) : Option (Elem ff) := if h : x.toNat < 2 ^ ff.degree then some ⟨x, h⟩ else none

/-- one call (`none`: the library dies or its behaviour is undefined, or the variables do not hold what the C types require) -/
def call (lib : Lib) (c : Pool) : Op (Elem lib.ff) → Option (Pool × Out (Elem lib.ff))
  | .init false d m n => put c d (.packed (mzedInit lib.ff lib.fid m n))
  | .init true d m n => put c d (.sliced (mzdSliceInit lib.ff lib.fid m n))
  | .free d => some (c.set d none, .unit)
  | .readElem s i j => match c s with
    | some (.packed A) => (elemOf lib.ff (mzedReadElem A i j)).map fun x => (c, .elem x)
    | some (.sliced A) => (elemOf lib.ff (mzdSliceReadElem A i j)).map fun x => (c, .elem x)
    | none => none
  | .writeElem d i j x => match c d with
    | some (.packed A) => put c d (.packed (mzedWriteElem A i j x.1))
    | some (.sliced A) => put c d (.sliced (mzdSliceWriteElem A i j x.1))
    | none => none
  | .addElem d i j x => match c d with
    | some (.packed A) => put c d (.packed (mzedAddElem A i j x.1))
    | some (.sliced A) => put c d (.sliced (mzdSliceAddElem A i j x.1))
    | none => none
  | .setUi d x => match c d with
    | some (.packed A) => put c d (.packed (mzedSetUi A x.1))
    | some (.sliced A) => put c d (.sliced (mzdSliceSetUi A x.1))
    | none => none
  | .rowSwap d i j => match c d with
    | some (.packed A) => put c d (.packed (mzedRowSwap A i j))
    | some (.sliced A) => put c d (.sliced (mzdSliceRowSwap A i j))
    | none => none
  | .colSwap d i j => match c d with
    | some (.packed A) => put c d (.packed (mzedColSwap A i j))
    | some (.sliced A) => put c d (.sliced (mzdSliceColSwap A i j))
    | none => none
  | .rescaleRow d i col x => match c d with
    | some (.packed A) => put c d (.packed (mzedRescaleRow A i col x.1))
    | _ => none
  | .addMultipleOfRow d i s j x col => match c d, c s with
    | some (.packed A), some (.packed B) => put c d (.packed (mzedAddMultipleOfRow A i B j x.1 col))
    | _, _ => none
  | .copy d s => match c d, c s with
    | some (.packed A), some (.packed B) => putP c d (mzedCopy? A B)
    | some (.sliced A), some (.sliced B) => put c d (.sliced (mzdSliceCopy A B))
    | _, _ => none
  | .convert d s => match c s with
    | some (.packed A) => putS c d (mzedSliceNew? A)
    | some (.sliced A) => putP c d (mzedClingNew? A)
    | none => none
  | .add d a b => match c d, c a, c b with
    | some (.packed D), some (.packed A), some (.packed B) => putP c d (mzedAdd? D A B)
    | some (.sliced D), some (.sliced A), some (.sliced B) => putS c d (mzdSliceAdd? D A B)
    | _, _, _ => none
  | .mulScalar d x s => match c d, c s with
    | some (.packed A), some (.packed B) => putP c d (mzedMulScalar? A x.1 B)
    | some (.sliced A), some (.sliced B) => putS c d (mzdSliceMulScalar? A x.1 B)
    | _, _ => none
  | .mul d a b => match c d, c a, c b with
    | some (.packed D), some (.packed A), some (.packed B) => putP c d (mzedMul? lib.mulEnv D A B)
    | some (.sliced D), some (.sliced A), some (.sliced B) => putS c d (mzdSliceMulKaratsuba? D A B)
    | _, _, _ => none
  | .addmul d a b => match c d, c a, c b with
    | some (.packed D), some (.packed A), some (.packed B) => putP c d (mzedAddmul? lib.mulEnv D A B)
    | some (.sliced D), some (.sliced A), some (.sliced B) => putS c d (mzdSliceAddmulKaratsuba? D A B)
    | _, _, _ => none
  | .concat d a b => match c a, c b with
    | some (.packed A), some (.packed B) => put c d (.packed (mzedConcat A B))
    | some (.sliced A), some (.sliced B) => put c d (.sliced (mzdSliceConcat A B))
    | _, _ => none
  | .stack d a b => match c a, c b with
    | some (.packed A), some (.packed B) => put c d (.packed (mzedStack A B))
    | some (.sliced A), some (.sliced B) => put c d (.sliced (mzdSliceStack A B))
    | _, _ => none
  | .submatrix d s lr lc hr hc => match c s with
    | some (.packed A) => put c d (.packed (mzedSubmatrix A lr lc hr hc))
    | some (.sliced A) => put c d (.sliced (mzdSliceSubmatrix A lr lc hr hc))
    | none => none
  | .echelonize d full => match c d with
    | some (.packed A) => (mzedEchelonize? lib.pleEnv lib.optK lib.smallNj lib.medium A full).map fun p => (c.set d (some (.packed p.1)), .num p.2)
    | some (.sliced A) => (mzdSliceEchelonizePle? lib.pleEnv A full).map fun p => (c.set d (some (.sliced p.1)), .num p.2)
    | none => none
  | .invert d s => match c s with
    | some (.packed A) => putP c d (mzedInvertNewtonJohn? lib.pleEnv.cb lib.optK lib.smallNj A)
    | _ => none
  | .trsmLower a d => match c a, c d with
    | some (.packed A), some (.packed B) => putP c d (mzedTrsmLowerLeftTop? lib.mulEnv A B)
    | some (.sliced A), some (.sliced B) => putS c d (mzdSliceTrsmLowerLeftTop? lib.pleEnv.cb A B)
    | _, _ => none
  | .trsmUpper a d => match c a, c d with
    | some (.packed A), some (.packed B) => putP c d (mzedTrsmUpperLeftTop? lib.mulEnv A B)
    | some (.sliced A), some (.sliced B) => putS c d (mzdSliceTrsmUpperLeftTop? lib.pleEnv.cb A B)
    | _, _ => none
  | .isZero s => match c s with
    | some (.packed A) => some (c, .bool (mzedIsZero A))
    | some (.sliced A) => some (c, .bool (mzdSliceIsZero A))
    | none => none
  | .equal a b => match c a, c b with
    | some (.packed A), some (.packed B) => some (c, .bool (mzedEq A B))
    | some (.sliced A), some (.sliced B) => some (c, .bool (mzdSliceEq A B))
    | _, _ => none

/-- a sequence of calls -/
def runProgram (lib : Lib) : Pool → List (Op (Elem lib.ff)) → Option (Pool × List (Out (Elem lib.ff)))
  | c, [] => some (c, [])
  | c, op :: ops => (call lib c op).bind fun p => (runProgram lib p.1 ops).map fun q => (q.1, p.2 :: q.2)

end M4rie
