import Verif.Spec.Programs

/-!
# Specification: programs whose matrices are not too large

The dimensions of a matrix and the positions inside a row are of type `int` in C.  `w` is the number of bits of an element.
-/

namespace M4rie.Spec

variable {K : Type}

/-- every matrix has at least one column, and its dimensions, counted in bits, can be expressed in an `int` -/
def Sized (w : Nat) (s : AState K) : Prop := ∀ d X, s d = some X → X.m < 2 ^ 31 ∧ 0 < X.n ∧ w * X.n < 2 ^ 31

/-- the products a call computes can be expressed in an `int` -/
def OpFits (w : Nat) (s : AState K) : Op K → Prop
  | .echelonize d _ => ∀ X, s d = some X → X.sliced = false → X.m * X.n * w < 2 ^ 31
  | .mulScalar d _ _ => ∀ X, s d = some X → X.sliced = false → X.m * X.n < 2 ^ 31
  | .invert _ a => ∀ X, s a = some X → w * (X.n + X.n) < 2 ^ 31
  | _ => True

def POpFits (w : Nat) (s : PState K) : POp K → Prop
  | .base op => OpFits w s.mat op
  | _ => True

/-- every swap recorded in a permutation is with a later index -/
def Ascending (s : PState K) : Prop := ∀ p x, s.perm p = some x → ∀ i, i ≤ x.arr i

/-- `PSafe` for programs that only use matrices that are not too large -/
def PSafeFit [Field K] [DecidableEq K] (bad : Nat → Nat → Prop) (w : Nat) : PState K → List (POp K) → Prop
  | s, [] => Sized w s.mat
  | s, op :: ops => Sized w s.mat ∧ POpFits w s op ∧ (∃ out s', PAllowed bad w s op out s') ∧ ∀ out s', PAllowed bad w s op out s' → PSafeFit bad w s' ops

end M4rie.Spec
