import Verif.Spec.PolyHistory

/-!
# Specification: programs on matrices over GF(2)[x] whose numbers of coefficients fit into an `int`
-/

namespace M4rie.Spec

/-- no polynomial has more coefficients than were allocated for it (true of every polynomial the library makes) -/
def PolySized (s : APolyState) : Prop := ∀ k X, s k = some X → X.depth ≤ X.cap

/-- the number of coefficients of a new polynomial can be expressed in an `int` -/
def PolyOpFits (s : APolyState) : PolyOp → Prop
  | .init _ deg _ _ => deg + 1 < 2 ^ 31
  | .mul _ _ a b => ∀ X Y, s a = some X → s b = some Y → X.depth + Y.depth < 2 ^ 31
  | _ => True

/-- `PolySafe`, and all numbers of coefficients fit -/
def PolySafeFit : APolyState → List PolyOp → Prop
  | _, [] => True
  | s, op :: ops => PolyOpFits s op ∧ (∃ out s', PolyAllowed s op out s') ∧ ∀ out s', PolyAllowed s op out s' → PolySafeFit s' ops

/-- `PolyRuns`, and all numbers of coefficients fit -/
inductive PolyRunsFit : APolyState → List PolyOp → List PolyOut → APolyState → Prop
  | nil (s) : PolyRunsFit s [] [] s
  | cons {s s' s'' op ops out outs} : PolyOpFits s op → PolyAllowed s op out s' → PolyRunsFit s' ops outs s'' → PolyRunsFit s (op :: ops) (out :: outs) s''

end M4rie.Spec
