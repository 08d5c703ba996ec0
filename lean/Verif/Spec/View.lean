import Verif.Spec.History

/-!
# Specification: programs with windows

A window is a variable that shows a rectangle of another matrix, its *root*: reading from it reads the root, writing to it writes the root.  The state
of a program is the matrices it owns (`bufs`) and the rectangles its windows show (`wins`).  Calls see every variable as a matrix (`look`); a call that
writes to a window writes into the root (`put`).
-/

namespace M4rie.Spec

/-- the rectangle of `m × n` entries of the matrix `root` whose upper left corner is `(r, c)` -/
structure View where
  root : Nat
  r : Nat
  c : Nat
  m : Nat
  n : Nat

structure VState (K : Type) where
  bufs : AState K
  wins : Nat → Option View

section
variable {K : Type}

/-- the entries a window shows -/
def AMat.cut [Zero K] (X : AMat K) (v : View) : AMat K := ⟨X.sliced, v.m, v.n, fun i j => ofFin X.val (v.r + i) (v.c + j)⟩

/-- `X` with the rectangle `v` replaced by `Y` -/
def AMat.paste [Zero K] (X : AMat K) (v : View) (Y : AMat K) : AMat K :=
  ⟨X.sliced, X.m, X.n, fun i j => if (v.r ≤ i.1 ∧ i.1 < v.r + v.m) ∧ v.c ≤ j.1 ∧ j.1 < v.c + v.n then ofFin Y.val (i - v.r) (j - v.c) else X.val i j⟩

/-- the matrix a variable shows -/
def VState.look [Zero K] (s : VState K) : AState K := fun k => match s.wins k with
  | some v => (s.bufs v.root).map fun X => X.cut v
  | none => s.bufs k

/-- the state after the variable `d` has become `Y` -/
def VState.put [Zero K] (s : VState K) (d : Nat) (Y : Option (AMat K)) : VState K := match s.wins d, Y with
  | some v, some Y => { s with bufs := s.bufs.set v.root ((s.bufs v.root).map fun X => X.paste v Y) }
  | _, Y => { s with bufs := s.bufs.set d Y }

/-- where the entries of a variable are kept -/
def VState.place (s : VState K) (k : Nat) : Option View := match s.wins k with
  | some v => some v
  | none => (s.bufs k).map fun X => ⟨k, 0, 0, X.m, X.n⟩

def View.Disjoint (v w : View) : Prop :=
  v.root ≠ w.root ∨ v.r + v.m ≤ w.r ∨ w.r + w.m ≤ v.r ∨ v.c + v.n ≤ w.c ∨ w.c + w.n ≤ v.c

end

/-- the variable a call writes to, creates or releases -/
def Op.dest {K : Type} : Op K → Option Nat
  | .init _ d _ _ | .free d | .writeElem d _ _ _ | .addElem d _ _ _ | .setUi d _ | .rowSwap d _ _ | .colSwap d _ _ | .rescaleRow d _ _ _
  | .addMultipleOfRow d _ _ _ _ _ | .copy d _ | .convert d _ | .add d _ _ | .mulScalar d _ _ | .mul d _ _ | .addmul d _ _ | .concat d _ _
  | .stack d _ _ | .submatrix d _ _ _ _ _ | .echelonize d _ | .invert d _ | .trsmLower _ d | .trsmUpper _ d => some d
  | .readElem _ _ _ | .isZero _ | .equal _ _ => none

/-- the variables a call reads -/
def Op.sources {K : Type} : Op K → List Nat
  | .init _ _ _ _ | .free _ | .writeElem _ _ _ _ | .addElem _ _ _ _ | .setUi _ _ | .rowSwap _ _ _ | .colSwap _ _ _ | .rescaleRow _ _ _ _
  | .echelonize _ _ => []
  | .addMultipleOfRow _ _ a _ _ _ | .copy _ a | .convert _ a | .mulScalar _ _ a | .submatrix _ a _ _ _ _ | .invert _ a | .trsmLower a _ | .trsmUpper a _
  | .readElem a _ _ | .isZero a => [a]
  | .add _ a b | .mul _ a b | .addmul _ a b | .concat _ a b | .stack _ a b | .equal a b => [a, b]

/-- the calls of a program with windows -/
inductive VOp (K : Type) where
  | call (op : Op K)
  /-- a new window `d` showing rows `lr..hr` and columns `lc..hc` of `a`, which may be a window itself -/
  | window (d a lr lc hr hc : Nat)
  | freeWindow (d : Nat)

/-- an operand that is not the destination itself shares no entry with the destination; a matrix is not released while windows show it, and a
window is not released with the function for matrices -/
def VState.Clear {K : Type} (s : VState K) (op : Op K) : Prop :=
  (∀ d ∈ op.dest, ∀ a ∈ op.sources, a ≠ d → ∀ v ∈ s.place d, ∀ w ∈ s.place a, v.Disjoint w) ∧
  (∀ d, op = .free d → s.wins d = none ∧ ∀ k v, s.wins k = some v → v.root ≠ d)

/-- `aligned sliced c`: a window may start at column `c` -/
inductive VAllowed {K : Type} [Field K] [DecidableEq K] (bad : Nat → Nat → Prop) (aligned : Bool → Nat → Prop) (s : VState K) :
    VOp K → Out K → VState K → Prop
  /-- a call that only reads -/
  | read {op : Op K} {out : Out K} : op.dest = none → Allowed bad s.look op out s.look → VAllowed bad aligned s (.call op) out s
  /-- a call that writes to `d` -/
  | write {op : Op K} {out : Out K} {d : Nat} {t : AState K} : op.dest = some d → s.Clear op → Allowed bad s.look op out t →
      VAllowed bad aligned s (.call op) out (s.put d (t d))
  | window {d a lr lc hr hc : Nat} {X : AMat K} {v : View} : s.look d = none → s.look a = some X → s.place a = some v → lr ≤ hr → hr ≤ X.m →
      lc ≤ hc → hc ≤ X.n → aligned X.sliced lc →
      VAllowed bad aligned s (.window d a lr lc hr hc) .unit
        { s with wins := fun k => if k = d then some ⟨v.root, v.r + lr, v.c + lc, hr - lr, hc - lc⟩ else s.wins k }
  | freeWindow {d : Nat} {v : View} : s.wins d = some v →
      VAllowed bad aligned s (.freeWindow d) .unit { s with wins := fun k => if k = d then none else s.wins k }

/-- every call of the program may be made when its turn comes, whatever the calls before it returned -/
def VSafe {K : Type} [Field K] [DecidableEq K] (bad : Nat → Nat → Prop) (aligned : Bool → Nat → Prop) : VState K → List (VOp K) → Prop
  | _, [] => True
  | s, op :: ops => (∃ out s', VAllowed bad aligned s op out s') ∧ ∀ out s', VAllowed bad aligned s op out s' → VSafe bad aligned s' ops

/-- the program can return `outs` and leave `s'` behind -/
inductive VRuns {K : Type} [Field K] [DecidableEq K] (bad : Nat → Nat → Prop) (aligned : Bool → Nat → Prop) :
    VState K → List (VOp K) → List (Out K) → VState K → Prop
  | nil (s) : VRuns bad aligned s [] [] s
  | cons {s s' s'' op ops out outs} : VAllowed bad aligned s op out s' → VRuns bad aligned s' ops outs s'' →
      VRuns bad aligned s (op :: ops) (out :: outs) s''

end M4rie.Spec
