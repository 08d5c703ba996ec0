import Verif.Model.History
import Verif.Model.Blm
import Verif.Spec.Programs

/-!
# Programs calling the library: permutations, decompositions, named algorithms

Extends `Verif.Model.History` in the same way: this module plays the role of the caller, every branch is one call of a modelled function.
-/

namespace M4rie
open M4rie.Spec

/-- the variables of a program: pointers to matrices and pointers to M4RI permutations `mzp_t` -/
structure PPool where
  mats : Pool
  perms : Nat → Option Mzp

def PPool.setPerm (c : PPool) (p : Nat) (x : Option Mzp) : PPool := { c with perms := fun k => if k = p then x else c.perms k }

/-- the configuration of the library and of M4RI; `l2` is the size of the L2 cache, `fuel` bounds the iterations of the search for pivots in blm.c
(`_blm_finish_polymult`), which the C code does not bound -/
structure PLib extends Lib where
  blmEnv : BlmEnv
  fuel : Nat
  l2 : Nat

/-- a multiplication asked for by name -/
def mulBy? (pl : PLib) : Alg → Mzed → Mzed → Mzed → Option Mzed
  | .naive, C, A, B => mzedMulNaive? C A B
  | .newtonJohn, C, A, B => mzedMulNewtonJohn? pl.mulEnv.cb pl.mulEnv.bs C A B
  | .strassen cutoff, C, A, B => mzedMulStrassen? pl.mulEnv.cb pl.mulEnv.bs C A B cutoff
  | .karatsuba, C, A, B => mzedMulKaratsuba? C A B
  | .blm, C, A, B => mzedMulBlm? pl.blmEnv pl.fuel C A B
  | .ple, _, _, _ => none

def addmulBy? (pl : PLib) : Alg → Mzed → Mzed → Mzed → Option Mzed
  | .naive, C, A, B => mzedAddmulNaive? C A B
  | .newtonJohn, C, A, B => mzedAddmulNewtonJohn? pl.mulEnv.cb pl.mulEnv.bs C A B
  | .strassen cutoff, C, A, B => mzedAddmulStrassen? pl.mulEnv.cb pl.mulEnv.bs C A B cutoff
  | .karatsuba, C, A, B => mzedAddmulKaratsuba? C A B
  | .blm, C, A, B => mzedAddmulBlm? pl.blmEnv pl.fuel C A B
  | .ple, _, _, _ => none

def sliceMulBy? (pl : PLib) : Alg → Slice → Slice → Slice → Option Slice
  | .blm, C, A, B => mzdSliceMulBlm? pl.blmEnv pl.fuel C A B none
  | _, _, _, _ => none

def sliceAddmulBy? (pl : PLib) : Alg → Slice → Slice → Slice → Option Slice
  | .naive, C, A, B => mzdSliceAddmulNaive? C A B
  | .blm, C, A, B => mzdSliceAddmulBlm? pl.blmEnv pl.fuel C A B none
  | _, _, _, _ => none

def echelonizeBy? (pl : PLib) : Alg → Mzed → Bool → Option (Mzed × Nat)
  | .naive, A, full => some (mzedEchelonizeNaive A full)
  | .newtonJohn, A, full => some (mzedEchelonizeNewtonJohn pl.pleEnv.cb pl.optK pl.smallNj A full)
  | .ple, A, full => mzedEchelonizePle? pl.pleEnv A full
  | _, _, _ => none

def trsmLowerBy? (pl : PLib) : Alg → Mzed → Mzed → Option Mzed
  | .naive, L, B => some (mzedTrsmLowerLeftNaive L B)
  | .newtonJohn, L, B => some (mzedTrsmLowerLeftNewtonJohn pl.pleEnv.cb L B)
  | _, _, _ => none

def trsmUpperBy? (pl : PLib) : Alg → Mzed → Mzed → Option Mzed
  | .naive, U, B => some (mzedTrsmUpperLeftNaive U B)
  | .newtonJohn, U, B => some (mzedTrsmUpperLeftNewtonJohn pl.pleEnv.cb U B)
  | _, _, _ => none

def sliceTrsmLowerBy? (pl : PLib) : Alg → Slice → Slice → Option Slice
  | .naive, L, B => mzdSliceTrsmLowerLeftNaive? L B
  | .newtonJohn, L, B => mzdSliceTrsmLowerLeftNewtonJohn? pl.pleEnv.cb L B
  | _, _, _ => none

def sliceTrsmUpperBy? (pl : PLib) : Alg → Slice → Slice → Option Slice
  | .naive, U, B => mzdSliceTrsmUpperLeftNaive? U B
  | .newtonJohn, U, B => mzdSliceTrsmUpperLeftNewtonJohn? pl.pleEnv.cb U B
  | _, _, _ => none

/-- one call of a function whose name says which algorithm it uses -/
def callBy (pl : PLib) (c : Pool) (alg : Alg) : Op (Elem pl.ff) → Option (Pool × Out (Elem pl.ff))
  | .mul d a b => match c d, c a, c b with
    | some (.packed D), some (.packed A), some (.packed B) => putP c d (mulBy? pl alg D A B)
    | some (.sliced D), some (.sliced A), some (.sliced B) => putS c d (sliceMulBy? pl alg D A B)
    | _, _, _ => none
  | .addmul d a b => match c d, c a, c b with
    | some (.packed D), some (.packed A), some (.packed B) => putP c d (addmulBy? pl alg D A B)
    | some (.sliced D), some (.sliced A), some (.sliced B) => putS c d (sliceAddmulBy? pl alg D A B)
    | _, _, _ => none
  | .echelonize d full => match c d with
    | some (.packed A) => (echelonizeBy? pl alg A full).map fun p => (c.set d (some (.packed p.1)), .num p.2)
    | _ => none
  | .trsmLower a d => match c a, c d with
    | some (.packed A), some (.packed B) => putP c d (trsmLowerBy? pl alg A B)
    | some (.sliced A), some (.sliced B) => putS c d (sliceTrsmLowerBy? pl alg A B)
    | _, _ => none
  | .trsmUpper a d => match c a, c d with
    | some (.packed A), some (.packed B) => putP c d (trsmUpperBy? pl alg A B)
    | some (.sliced A), some (.sliced B) => putS c d (sliceTrsmUpperBy? pl alg A B)
    | _, _ => none
  | _ => none

/-- the result of a decomposition stored in the variables -/
def putPle {ff : Gf2e} (c : PPool) (d p q : Nat) (r : Obj × Mzp × Mzp × Nat) : PPool × Out (Elem ff) :=
  ((({ c with mats := c.mats.set d (some r.1) } : PPool).setPerm p (some r.2.1)).setPerm q (some r.2.2.1), .num r.2.2.2)

def mzpOf (P Q : Mzp) (r : Mzed × (Nat → Nat) × (Nat → Nat) × Nat) : Obj × Mzp × Mzp × Nat := (.packed r.1, ⟨P.length, r.2.1⟩, ⟨Q.length, r.2.2.1⟩, r.2.2.2)

/-- a permutation applied to a matrix -/
def applyBy {ff : Gf2e} (c : PPool) (d p : Nat) (f : Mzed → Mzp → Mzed) (g : Slice → Mzp → Slice) : Option (PPool × Out (Elem ff)) :=
  match c.mats d, c.perms p with
  | some (.packed A), some P => some ({ c with mats := c.mats.set d (some (.packed (f A P))) }, .unit)
  | some (.sliced A), some P => some ({ c with mats := c.mats.set d (some (.sliced (g A P))) }, .unit)
  | _, _ => none

/-- one call (`none`: the library dies or its behaviour is undefined, or the variables do not hold what the C types require) -/
def pcall (pl : PLib) (c : PPool) : POp (Elem pl.ff) → Option (PPool × Out (Elem pl.ff))
  | .base op => (call pl.toLib c.mats op).map fun r => ({ c with mats := r.1 }, r.2)
  | .named alg op => (callBy pl c.mats alg op).map fun r => ({ c with mats := r.1 }, r.2)
  | .permInit p n => some (c.setPerm p (some (mzpInit n)), .unit)
  | .permFree p => some (c.setPerm p none, .unit)
  | .applyLeft d p => applyBy c d p mzedApplyPLeft mzdSliceApplyPLeft
  | .applyLeftTrans d p => applyBy c d p mzedApplyPLeftTrans mzdSliceApplyPLeftTrans
  | .applyRight d p => applyBy c d p mzedApplyPRight mzdSliceApplyPRight
  | .applyRightTrans d p => applyBy c d p mzedApplyPRightTrans mzdSliceApplyPRightTrans
  | .decompose d p q => match c.mats d, c.perms p, c.perms q with
    | some (.packed A), some P, some Q =>
      (mzedPleTop? pl.pleEnv.cb pl.pleEnv.compress pl.l2 A P.val Q.val).map fun r => putPle c d p q (mzpOf P Q r)
    | some (.sliced A), some P, some Q =>
      (mzdSlicePleTop? pl.pleEnv.cb pl.pleEnv.compress pl.l2 A P Q).map fun r => putPle c d p q (.sliced r.1, r.2)
    | _, _, _ => none
  | .decomposeBy alg d p q => match c.mats d, c.perms p, c.perms q with
    | some (.packed A), some P, some Q => match alg with
      | .naive => some (putPle c d p q (mzpOf P Q (mzedPleNaive A P.val Q.val)))
      | .newtonJohn => some (putPle c d p q (mzpOf P Q (mzedPleNewtonJohn pl.pleEnv.cb A P.val Q.val)))
      | _ => none
    | _, _, _ => none
  | .pluq d p q => match c.mats d, c.perms p, c.perms q with
    | some (.sliced A), some P, some Q =>
      (mzdSlicePluqTop? pl.pleEnv.cb pl.pleEnv.compress pl.l2 A P Q).map fun r => putPle c d p q (.sliced r.1, r.2)
    | _, _, _ => none
  | .rowAdd d i j => match c.mats d with
    | some (.packed A) => some ({ c with mats := c.mats.set d (some (.packed (mzedRowAdd A i j))) }, .unit)
    | _ => none
  | .copyRow d i a j => match c.mats d, c.mats a with
    | some (.packed B), some (.packed A) => some ({ c with mats := c.mats.set d (some (.packed (mzedCopyRow B i A j))) }, .unit)
    | _, _ => none
  | .firstZeroRow a => match c.mats a with
    | some (.packed A) => some (c, .num (mzedFirstZeroRow A))
    | _ => none
  | .addmulScalar d x a => match c.mats d, c.mats a with
    | some (.sliced C), some (.sliced A) => (mzdSliceAddmulScalar? C x.1 A).map fun R => ({ c with mats := c.mats.set d (some (.sliced R)) }, .unit)
    | _, _ => none

/-- a sequence of calls -/
def prunProgram (pl : PLib) : PPool → List (POp (Elem pl.ff)) → Option (PPool × List (Out (Elem pl.ff)))
  | c, [] => some (c, [])
  | c, op :: ops => (pcall pl c op).bind fun p => (prunProgram pl p.1 ops).map fun q => (q.1, p.2 :: q.2)

end M4rie
