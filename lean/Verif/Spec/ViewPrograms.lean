import Verif.Spec.Programs
import Verif.Spec.View
import Verif.Spec.Fit

/-!
# Specification: programs with windows, permutations, decompositions and a choice of algorithms

`Verif.Spec.Programs` (all kinds of calls) on the variables of `Verif.Spec.View` (matrices and windows into them).
-/

namespace M4rie.Spec
variable {K : Type}

structure WState (K : Type) where
  mats : VState K
  perm : Nat → Option APerm

/-- the matrices and permutations the variables show -/
def WState.look [Zero K] (s : WState K) : PState K := ⟨s.mats.look, s.perm⟩

/-- the matrix a call writes to, creates or releases -/
def POp.dest : POp K → Option Nat
  | .base op | .named _ op => op.dest
  | .applyLeft d _ | .applyLeftTrans d _ | .applyRight d _ | .applyRightTrans d _ | .decompose d _ _ | .decomposeBy _ d _ _ | .pluq d _ _ | .rowAdd d _ _
  | .copyRow d _ _ _ | .addmulScalar d _ _ => some d
  | .permInit _ _ | .permFree _ | .firstZeroRow _ => none

/-- the matrices a call reads besides -/
def POp.sources : POp K → List Nat
  | .base op | .named _ op => op.sources
  | .copyRow _ _ a _ | .addmulScalar _ _ a | .firstZeroRow a => [a]
  | _ => []

/-- as `VState.Clear` -/
def WState.Clear (s : WState K) (op : POp K) : Prop :=
  (∀ d ∈ op.dest, ∀ a ∈ op.sources, a ≠ d → ∀ v ∈ s.mats.place d, ∀ w ∈ s.mats.place a, v.Disjoint w) ∧
  (∀ d, op = .base (.free d) → s.mats.wins d = none ∧ ∀ k v, s.mats.wins k = some v → v.root ≠ d)

/-- the calls of a program with windows -/
inductive WOp (K : Type) where
  | call (op : POp K)
  /-- a new window `d` showing rows `lr..hr` and columns `lc..hc` of `a`, which may be a window itself -/
  | window (d a lr lc hr hc : Nat)
  | freeWindow (d : Nat)

inductive WAllowed [Field K] [DecidableEq K] (bad : Nat → Nat → Prop) (w : Nat) (aligned : Bool → Nat → Prop) (s : WState K) :
    WOp K → Out K → WState K → Prop
  /-- a call that writes to no matrix -/
  | read {op : POp K} {out : Out K} {t : PState K} : op.dest = none → PAllowed bad w s.look op out t → WAllowed bad w aligned s (.call op) out ⟨s.mats, t.perm⟩
  /-- a call that writes to the matrix or window `d` -/
  | write {op : POp K} {out : Out K} {d : Nat} {t : PState K} : op.dest = some d → s.Clear op → PAllowed bad w s.look op out t →
      WAllowed bad w aligned s (.call op) out ⟨s.mats.put d (t.mat d), t.perm⟩
  | window {d a lr lc hr hc : Nat} {m : VState K} : VAllowed bad aligned s.mats (.window d a lr lc hr hc) .unit m →
      WAllowed bad w aligned s (.window d a lr lc hr hc) .unit { s with mats := m }
  | freeWindow {d : Nat} {m : VState K} : VAllowed bad aligned s.mats (.freeWindow d) .unit m → WAllowed bad w aligned s (.freeWindow d) .unit { s with mats := m }

/-- every call of the program may be made when its turn comes, whatever the calls before it returned -/
def WSafe [Field K] [DecidableEq K] (bad : Nat → Nat → Prop) (w : Nat) (aligned : Bool → Nat → Prop) : WState K → List (WOp K) → Prop
  | _, [] => True
  | s, op :: ops => (∃ out s', WAllowed bad w aligned s op out s') ∧ ∀ out s', WAllowed bad w aligned s op out s' → WSafe bad w aligned s' ops

/-- the program can return `outs` and leave `s'` behind -/
inductive WRuns [Field K] [DecidableEq K] (bad : Nat → Nat → Prop) (w : Nat) (aligned : Bool → Nat → Prop) : WState K → List (WOp K) → List (Out K) → WState K → Prop
  | nil (s) : WRuns bad w aligned s [] [] s
  | cons {s s' s'' op ops out outs} : WAllowed bad w aligned s op out s' → WRuns bad w aligned s' ops outs s'' → WRuns bad w aligned s (op :: ops) (out :: outs) s''

/-- the products a call computes can be expressed in an `int` -/
def WOpFits [Zero K] (w : Nat) (s : WState K) : WOp K → Prop
  | .call op => POpFits w s.look op
  | _ => True

/-- `WSafe` for programs that only use matrices that are not too large -/
def WSafeFit [Field K] [DecidableEq K] (bad : Nat → Nat → Prop) (w : Nat) (aligned : Bool → Nat → Prop) : WState K → List (WOp K) → Prop
  | s, [] => Sized w s.mats.look
  | s, op :: ops => Sized w s.mats.look ∧ WOpFits w s op ∧ (∃ out s', WAllowed bad w aligned s op out s') ∧
      ∀ out s', WAllowed bad w aligned s op out s' → WSafeFit bad w aligned s' ops

end M4rie.Spec
