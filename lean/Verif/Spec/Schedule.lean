import Verif.Spec.ViewPrograms
import Verif.Model.Programs

/-!
# Specification: several threads calling the library

Every call belongs to a thread; a schedule is the list of all calls in the order in which they happen.  Threads do not race if no variable that one
thread writes is used by another (variables that nobody writes may be shared).
-/

namespace M4rie.Spec
variable {K : Type}

/-- a variable of the program -/
inductive Slot where
  | mat (k : Nat)
  | perm (k : Nat)
  deriving DecidableEq

/-- the permutations a call writes, creates or releases -/
def POp.permDests : POp K → List Nat
  | .permInit p _ | .permFree p => [p]
  | .decompose _ p q | .decomposeBy _ _ p q | .pluq _ p q => [p, q]
  | _ => []

/-- the permutations a call reads besides -/
def POp.permSources : POp K → List Nat
  | .applyLeft _ p | .applyLeftTrans _ p | .applyRight _ p | .applyRightTrans _ p => [p]
  | _ => []

/-- the variables a call writes, creates or releases -/
def POp.writes (op : POp K) : List Slot := op.dest.toList.map .mat ++ op.permDests.map .perm

/-- the variables a call has to do with -/
def POp.uses (op : POp K) : List Slot := op.writes ++ op.sources.map .mat ++ op.permSources.map .perm

/-- a schedule: who calls what -/
abbrev Schedule (K : Type) := List (Nat × POp K)

/-- the calls of thread `t`, in its order -/
def Schedule.of (zs : Schedule K) (t : Nat) : List (POp K) := (zs.filter fun z => z.1 = t).map (·.2)

/-- the results that thread `t` gets, in its order -/
def resultsOf {α : Type} (zs : Schedule K) (outs : List α) (t : Nat) : List α := ((zs.zip outs).filter fun z => z.1.1 = t).map (·.2)

/-- no thread uses a variable that another one writes -/
def RaceFree (zs : Schedule K) : Prop := ∀ x ∈ zs, ∀ y ∈ zs, x.1 ≠ y.1 → ∀ v ∈ x.2.writes, v ∉ y.2.uses

/-! ### with windows -/

/-- the variables `d` and `a` have no entry in common and are not the same: different matrices, windows into different matrices, windows showing disjoint
rectangles of one matrix, or a matrix and a window into another -/
def Apart (wins : Nat → Option View) (d a : Nat) : Prop := d ≠ a ∧ match wins d, wins a with
  | some v, some w => v.Disjoint w
  | some v, none => v.root ≠ a
  | none, some w => w.root ≠ d
  | none, none => True

/-- the matrices or windows a call has to do with -/
def POp.matUses (op : POp K) : List Nat := op.dest.toList ++ op.sources

/-- the permutations a call has to do with -/
def POp.permUses (op : POp K) : List Nat := op.permDests ++ op.permSources

/-- what a call writes is apart from everything another call has to do with -/
def WritesApart (wins : Nat → Option View) (x y : POp K) : Prop :=
  (∀ d ∈ x.dest, ∀ a ∈ y.matUses, Apart wins d a) ∧ ∀ p ∈ x.permDests, p ∉ y.permUses

/-- no thread writes to entries or permutations that another one uses; `wins` are the windows, which are made before the threads start -/
def RaceFreeWindows (wins : Nat → Option View) (zs : Schedule K) : Prop := ∀ x ∈ zs, ∀ y ∈ zs, x.1 ≠ y.1 → WritesApart wins x.2 y.2

end M4rie.Spec

namespace M4rie
open M4rie.Spec

/-- what a variable of the program holds -/
inductive Content where
  | obj (o : Option Obj)
  | mzp (p : Option Mzp)

def PPool.get (c : PPool) : Slot → Content
  | .mat k => .obj (c.mats k)
  | .perm k => .mzp (c.perms k)

end M4rie
