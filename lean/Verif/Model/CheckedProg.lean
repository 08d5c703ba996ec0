import Verif.Model.CheckedBlm
import Verif.Model.Programs

/-!
# Programs calling the library, every step checked

`Verif.Model.Programs` again, with the checked function in every branch: `none` as soon as one access leaves a matrix, a permutation or a table, a
shift distance reaches 64, an `int` overflows, a contract of M4RI is violated or (`dbg = true`: compiled without `NDEBUG`) an assertion fails.  Like
that module this one plays the role of the caller and has no counterpart in the repository.
-/

namespace M4rie.Chk
open M4rie.Spec

/-- trsm.h:139-141 `mzed_trsm_lower_left(L,B)`. -/
def trsmLowerTop (dbg : Bool) (env : MulEnv) (L B : Mzed) : Option Mzed := trsmLower dbg env L B mzedTrsmCutoff

/-- trsm.h:67-69 `mzed_trsm_upper_left(U,B)`. -/
def trsmUpperTop (dbg : Bool) (env : MulEnv) (U B : Mzed) : Option Mzed := trsmUpper dbg env U B mzedTrsmCutoff

/-- trsm.h:175-177 `mzd_slice_trsm_lower_left(L,B)`. -/
def strsmLowerTop (dbg : Bool) (cb : Codebook) (L B : Slice) : Option Slice := strsmLower dbg cb L B mzedTrsmCutoff

/-- trsm.h:103-105 `mzd_slice_trsm_upper_left(U,B)`. -/
def strsmUpperTop (dbg : Bool) (cb : Codebook) (U B : Slice) : Option Slice := strsmUpper dbg cb U B mzedTrsmCutoff

/-- ple.h:203-205 `mzed_ple(A,P,Q)`. -/
def mzedPleTop (dbg : Bool) (cb : Codebook) (compress : Nat → Nat → (Nat → Nat → Word) → Nat → Nat → Nat → Nat → Nat → Word) (l2 : Nat)
    (A : Mzed) (P Q : Mzp) : Option (Mzed × Mzp × Mzp × Nat) := mzedPle dbg (pleEnvOf cb compress A.ff l2 ((l2 * 4 : Nat) : Int)) A P Q

/-- a word read from a matrix as an answer -/
def ansE {ff : Gf2e} (c : Pool) (o : Option Word) : Option (Pool × Out (Elem ff)) := (o.bind (elemOf ff)).map fun x => (c, .elem x)
/-- a truth value as an answer -/
def ansB {ff : Gf2e} (c : Pool) (o : Option Bool) : Option (Pool × Out (Elem ff)) := o.map fun b => (c, .bool b)

/-- one call; the functions called are those of `M4rie.call` (Model/History.lean) -/
def call (dbg : Bool) (l2 : Nat) (lib : Lib) (c : Pool) : Op (Elem lib.ff) → Option (Pool × Out (Elem lib.ff))
  | .init false d m n => putP c d (init lib.ff lib.fid m n)
  | .init true d m n => putS c d (sliceInit lib.ff lib.fid m n)
  | .free d => some (c.set d none, .unit)
  | .readElem s i j => match c s with
    | some (.packed A) => ansE c (readElem A i j)
    | some (.sliced A) => ansE c (sliceReadElem A i j)
    | none => none
  | .writeElem d i j x => match c d with
    | some (.packed A) => putP c d (writeElem A i j x.1)
    | some (.sliced A) => putS c d (sliceWriteElem A i j x.1)
    | none => none
  | .addElem d i j x => match c d with
    | some (.packed A) => putP c d (addElem A i j x.1)
    | some (.sliced A) => putS c d (sliceAddElem A i j x.1)
    | none => none
  | .setUi d x => match c d with
    | some (.packed A) => putP c d (setUi A x.1)
    | some (.sliced A) => putS c d (sliceSetUi A x.1)
    | none => none
  | .rowSwap d i j => match c d with
    | some (.packed A) => putP c d (rowSwap A i j)
    | some (.sliced A) => putS c d (sliceRowSwap A i j)
    | none => none
  | .colSwap d i j => match c d with
    | some (.packed A) => putP c d (colSwap A i j)
    | some (.sliced A) => putS c d (sliceColSwap A i j)
    | none => none
  | .rescaleRow d i col x => match c d with
    | some (.packed A) => putP c d (rescaleRow dbg A i col x.1)
    | _ => none
  | .addMultipleOfRow d i s j x col => match c d, c s with
    | some (.packed A), some (.packed B) => putP c d (addMultipleOfRow dbg A i B j x.1 col)
    | _, _ => none
  | .copy d s => match c d, c s with
    | some (.packed A), some (.packed B) => putP c d (copy A B)
    | some (.sliced A), some (.sliced B) => putS c d (sliceCopy A B)
    | _, _ => none
  | .convert d s => match c s with
    | some (.packed A) => putS c d (sliceNew dbg A)
    | some (.sliced A) => putP c d (clingNew A)
    | none => none
  | .add d a b => match c d, c a, c b with
    | some (.packed D), some (.packed A), some (.packed B) => putP c d (add D A B)
    | some (.sliced D), some (.sliced A), some (.sliced B) => putS c d (sliceAdd D A B)
    | _, _, _ => none
  | .mulScalar d x s => match c d, c s with
    | some (.packed A), some (.packed B) => putP c d (mulScalar dbg A x.1 B)
    | some (.sliced A), some (.sliced B) => putS c d (sliceMulScalar dbg A x.1 B)
    | _, _ => none
  | .mul d a b => match c d, c a, c b with
    | some (.packed D), some (.packed A), some (.packed B) => putP c d (mulM dbg lib.mulEnv D A B)
    | some (.sliced D), some (.sliced A), some (.sliced B) => putS c d (sliceMulKaratsuba D A B)
    | _, _, _ => none
  | .addmul d a b => match c d, c a, c b with
    | some (.packed D), some (.packed A), some (.packed B) => putP c d (addmulM dbg lib.mulEnv D A B)
    | some (.sliced D), some (.sliced A), some (.sliced B) => putS c d (sliceAddmulKaratsuba D A B)
    | _, _, _ => none
  | .concat d a b => match c a, c b with
    | some (.packed A), some (.packed B) => putP c d (concat A B)
    | some (.sliced A), some (.sliced B) => putS c d (sliceConcat A B)
    | _, _ => none
  | .stack d a b => match c a, c b with
    | some (.packed A), some (.packed B) => putP c d (stack A B)
    | some (.sliced A), some (.sliced B) => putS c d (sliceStack A B)
    | _, _ => none
  | .submatrix d s lr lc hr hc => match c s with
    | some (.packed A) => putP c d (submatrix A lr lc hr hc)
    | some (.sliced A) => putS c d (sliceSubmatrix A lr lc hr hc)
    | none => none
  | .echelonize d full => match c d with
    | some (.packed A) => (echelonize dbg lib.pleEnv l2 lib.optK lib.smallNj A full).map fun p => (c.set d (some (.packed p.1)), .num p.2)
    | some (.sliced A) => (sliceEchelonizePle dbg lib.pleEnv A full).map fun p => (c.set d (some (.sliced p.1)), .num p.2)
    | none => none
  | .invert d s => match c s with
    | some (.packed A) => putP c d (invert dbg lib.pleEnv.cb lib.optK lib.smallNj A)
    | _ => none
  | .trsmLower a d => match c a, c d with
    | some (.packed A), some (.packed B) => putP c d (trsmLowerTop dbg lib.mulEnv A B)
    | some (.sliced A), some (.sliced B) => putS c d (strsmLowerTop dbg lib.pleEnv.cb A B)
    | _, _ => none
  | .trsmUpper a d => match c a, c d with
    | some (.packed A), some (.packed B) => putP c d (trsmUpperTop dbg lib.mulEnv A B)
    | some (.sliced A), some (.sliced B) => putS c d (strsmUpperTop dbg lib.pleEnv.cb A B)
    | _, _ => none
  | .isZero s => match c s with
    | some (.packed A) => ansB c (isZero A)
    | some (.sliced A) => ansB c (sliceIsZero A)
    | none => none
  | .equal a b => match c a, c b with
    | some (.packed A), some (.packed B) => ansB c (equal A B)
    | some (.sliced A), some (.sliced B) => ansB c (sliceEqual A B)
    | _, _ => none

/-- a multiplication asked for by name, as `M4rie.mulBy?` -/
def mulBy (dbg : Bool) (pl : PLib) : Alg → Mzed → Mzed → Mzed → Option Mzed
  | .naive, C, A, B => mulNaiveTop true C A B
  | .newtonJohn, C, A, B => mulNewtonJohnTop dbg pl.mulEnv.cb pl.mulEnv.bs true C A B
  | .strassen cutoff, C, A, B => mulStrassen dbg pl.mulEnv.cb pl.mulEnv.bs C A B cutoff
  | .karatsuba, C, A, B => mulKaratsubaTop dbg true C A B
  | .blm, C, A, B => mulBlm dbg pl.blmEnv pl.fuel true C A B
  | .ple, _, _, _ => none

/-- as `M4rie.addmulBy?` -/
def addmulBy (dbg : Bool) (pl : PLib) : Alg → Mzed → Mzed → Mzed → Option Mzed
  | .naive, C, A, B => mulNaiveTop false C A B
  | .newtonJohn, C, A, B => mulNewtonJohnTop dbg pl.mulEnv.cb pl.mulEnv.bs false C A B
  | .strassen cutoff, C, A, B => addmulStrassen dbg pl.mulEnv.cb pl.mulEnv.bs C A B cutoff
  | .karatsuba, C, A, B => mulKaratsubaTop dbg false C A B
  | .blm, C, A, B => mulBlm dbg pl.blmEnv pl.fuel false C A B
  | .ple, _, _, _ => none

/-- as `M4rie.sliceMulBy?` -/
def sliceMulBy (dbg : Bool) (pl : PLib) : Alg → Slice → Slice → Slice → Option Slice
  | .blm, C, A, B => sliceMulBlm dbg pl.blmEnv pl.fuel C A B
  | _, _, _, _ => none

/-- as `M4rie.sliceAddmulBy?` -/
def sliceAddmulBy (dbg : Bool) (pl : PLib) : Alg → Slice → Slice → Slice → Option Slice
  | .naive, C, A, B => sliceAddmulNaive C A B
  | .blm, C, A, B => sliceAddmulBlm dbg pl.blmEnv pl.fuel C A B
  | _, _, _, _ => none

/-- as `M4rie.echelonizeBy?` -/
def echelonizeBy (dbg : Bool) (pl : PLib) : Alg → Mzed → Bool → Option (Mzed × Nat)
  | .naive, A, full => echelonizeNaive dbg A full
  | .newtonJohn, A, full => echelonizeNewtonJohn dbg pl.pleEnv.cb pl.optK pl.smallNj A full
  | .ple, A, full => echelonizePle dbg pl.pleEnv A full
  | _, _, _ => none

/-- as `M4rie.trsmLowerBy?` -/
def trsmLowerBy (dbg : Bool) (pl : PLib) : Alg → Mzed → Mzed → Option Mzed
  | .naive, L, B => trsmLowerNaive dbg L B
  | .newtonJohn, L, B => trsmLowerNj dbg pl.pleEnv.cb L B
  | _, _, _ => none

/-- as `M4rie.trsmUpperBy?` -/
def trsmUpperBy (dbg : Bool) (pl : PLib) : Alg → Mzed → Mzed → Option Mzed
  | .naive, U, B => trsmUpperNaive dbg U B
  | .newtonJohn, U, B => trsmUpperNj dbg pl.pleEnv.cb U B
  | _, _, _ => none

/-- as `M4rie.sliceTrsmLowerBy?` -/
def sliceTrsmLowerBy (dbg : Bool) (pl : PLib) : Alg → Slice → Slice → Option Slice
  | .naive, L, B => strsmLowerNaive dbg L B
  | .newtonJohn, L, B => strsmLowerNj dbg pl.pleEnv.cb L B
  | _, _, _ => none

/-- as `M4rie.sliceTrsmUpperBy?` -/
def sliceTrsmUpperBy (dbg : Bool) (pl : PLib) : Alg → Slice → Slice → Option Slice
  | .naive, U, B => strsmUpperNaive dbg U B
  | .newtonJohn, U, B => strsmUpperNj dbg pl.pleEnv.cb U B
  | _, _, _ => none

/-- one call of a function whose name says which algorithm it uses, as `M4rie.callBy` -/
def callBy (dbg : Bool) (pl : PLib) (c : Pool) (alg : Alg) : Op (Elem pl.ff) → Option (Pool × Out (Elem pl.ff))
  | .mul d a b => match c d, c a, c b with
    | some (.packed D), some (.packed A), some (.packed B) => putP c d (mulBy dbg pl alg D A B)
    | some (.sliced D), some (.sliced A), some (.sliced B) => putS c d (sliceMulBy dbg pl alg D A B)
    | _, _, _ => none
  | .addmul d a b => match c d, c a, c b with
    | some (.packed D), some (.packed A), some (.packed B) => putP c d (addmulBy dbg pl alg D A B)
    | some (.sliced D), some (.sliced A), some (.sliced B) => putS c d (sliceAddmulBy dbg pl alg D A B)
    | _, _, _ => none
  | .echelonize d full => match c d with
    | some (.packed A) => (echelonizeBy dbg pl alg A full).map fun p => (c.set d (some (.packed p.1)), .num p.2)
    | _ => none
  | .trsmLower a d => match c a, c d with
    | some (.packed A), some (.packed B) => putP c d (trsmLowerBy dbg pl alg A B)
    | some (.sliced A), some (.sliced B) => putS c d (sliceTrsmLowerBy dbg pl alg A B)
    | _, _ => none
  | .trsmUpper a d => match c a, c d with
    | some (.packed A), some (.packed B) => putP c d (trsmUpperBy dbg pl alg A B)
    | some (.sliced A), some (.sliced B) => putS c d (sliceTrsmUpperBy dbg pl alg A B)
    | _, _ => none
  | _ => none

/-- a permutation applied to a matrix -/
def applyBy {ff : Gf2e} (c : PPool) (d p : Nat) (f : Mzed → Mzp → Option Mzed) (g : Slice → Mzp → Option Slice) : Option (PPool × Out (Elem ff)) :=
  match c.mats d, c.perms p with
  | some (.packed A), some P => (f A P).map fun R => ({ c with mats := c.mats.set d (some (.packed R)) }, .unit)
  | some (.sliced A), some P => (g A P).map fun R => ({ c with mats := c.mats.set d (some (.sliced R)) }, .unit)
  | _, _ => none

/-- the result of a decomposition of a packed matrix stored in the variables -/
def putPleP {ff : Gf2e} (c : PPool) (d p q : Nat) (o : Option (Mzed × Mzp × Mzp × Nat)) : Option (PPool × Out (Elem ff)) :=
  o.map fun r => putPle c d p q (.packed r.1, r.2)
/-- the same, sliced -/
def putPleS {ff : Gf2e} (c : PPool) (d p q : Nat) (o : Option (Slice × Mzp × Mzp × Nat)) : Option (PPool × Out (Elem ff)) :=
  o.map fun r => putPle c d p q (.sliced r.1, r.2)

/-- one call, as `M4rie.pcall` -/
def pcall (dbg : Bool) (pl : PLib) (c : PPool) : POp (Elem pl.ff) → Option (PPool × Out (Elem pl.ff))
  | .base op => (call dbg pl.l2 pl.toLib c.mats op).map fun r => ({ c with mats := r.1 }, r.2)
  | .named alg op => (callBy dbg pl c.mats alg op).map fun r => ({ c with mats := r.1 }, r.2)
  | .permInit p n => some (c.setPerm p (some (mzpInit n)), .unit)
  | .permFree p => some (c.setPerm p none, .unit)
  | .applyLeft d p => applyBy c d p applyPLeft sliceApplyPLeft
  | .applyLeftTrans d p => applyBy c d p applyPLeftTrans sliceApplyPLeftTrans
  | .applyRight d p => applyBy c d p applyPRight sliceApplyPRight
  | .applyRightTrans d p => applyBy c d p applyPRightTrans sliceApplyPRightTrans
  | .decompose d p q => match c.mats d, c.perms p, c.perms q with
    | some (.packed A), some P, some Q => putPleP c d p q (mzedPleTop dbg pl.pleEnv.cb pl.pleEnv.compress pl.l2 A P Q)
    | some (.sliced A), some P, some Q => putPleS c d p q (slicePleTop dbg pl.pleEnv.cb pl.pleEnv.compress pl.l2 A P Q)
    | _, _, _ => none
  | .decomposeBy alg d p q => match c.mats d, c.perms p, c.perms q with
    | some (.packed A), some P, some Q => match alg with
      | .naive => putPleP c d p q (pleTop (pleNaive dbg) A P Q)
      | .newtonJohn => putPleP c d p q (pleTop (pleNewtonJohn dbg pl.pleEnv.cb) A P Q)
      | _ => none
    | _, _, _ => none
  | .pluq d p q => match c.mats d, c.perms p, c.perms q with
    | some (.sliced A), some P, some Q => putPleS c d p q (slicePluqTop dbg pl.pleEnv.cb pl.pleEnv.compress pl.l2 A P Q)
    | _, _, _ => none
  | .rowAdd d i j => match c.mats d with
    | some (.packed A) => (rowAdd A i j).map fun R => ({ c with mats := c.mats.set d (some (.packed R)) }, .unit)
    | _ => none
  | .copyRow d i a j => match c.mats d, c.mats a with
    | some (.packed B), some (.packed A) => (copyRow B i A j).map fun R => ({ c with mats := c.mats.set d (some (.packed R)) }, .unit)
    | _, _ => none
  | .firstZeroRow a => match c.mats a with
    | some (.packed A) => (firstZeroRow A).map fun k => (c, .num k)
    | _ => none
  | .addmulScalar d x a => match c.mats d, c.mats a with
    | some (.sliced C), some (.sliced A) =>
      (sliceAddmulScalar dbg C x.1 A).map fun R => ({ c with mats := c.mats.set d (some (.sliced R)) }, .unit)
    | _, _ => none

/-- a sequence of calls -/
def prunProgram (dbg : Bool) (pl : PLib) : PPool → List (POp (Elem pl.ff)) → Option (PPool × List (Out (Elem pl.ff)))
  | c, [] => some (c, [])
  | c, op :: ops => (pcall dbg pl c op).bind fun p => (prunProgram dbg pl p.1 ops).map fun q => (q.1, p.2 :: q.2)

end M4rie.Chk
