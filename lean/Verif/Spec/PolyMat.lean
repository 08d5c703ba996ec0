import Mathlib.Algebra.Polynomial.Basic
import Mathlib.Data.Matrix.Mul
import Verif.Model.MzdPoly
import Verif.Spec.Gf2

/-!
# Specification: matrices over GF(2)[x]

`polyMat m n P` is the `m × n` matrix of polynomials whose coefficients of `x^t` are the entries of the bit matrix `P->x[t]`.
-/

namespace M4rie.Spec
open M4rie Polynomial

/-- the matrix over `GF(2)[x]` stored in `P` -/
noncomputable def polyMat (m n : Nat) (P : MzdPoly) : Matrix (Fin m) (Fin n) (ZMod 2)[X] :=
  fun i j => ∑ t ∈ Finset.range P.depth, monomial t (gf2Entry (P.x t) i j)

/-- `R` has the dimensions and the number of coefficients of `C` -/
structure PolySame (R C : MzdPoly) : Prop where
  nrows : R.nrows = C.nrows
  ncols : R.ncols = C.ncols
  depth : R.depth = C.depth
  cap : R.cap = C.cap

/-- `R = C + A*B`, and nothing outside the matrices has been written -/
structure HoldsPolySum (R C A B : MzdPoly) : Prop where
  same : PolySame R C
  value : polyMat A.nrows B.ncols R = polyMat A.nrows B.ncols C + polyMat A.nrows A.ncols A * polyMat A.ncols B.ncols B
  frame : ∀ t i j, ¬ (t < A.depth + B.depth - 1 ∧ i < A.nrows ∧ j < B.ncols) → bitAt (R.x t) i j = bitAt (C.x t) i j

/-- `C->x[t] = (A*B)[t]` for the coefficients of the product, the other coefficients of `C` are unchanged -/
structure HoldsPolyProduct (R C A B : MzdPoly) : Prop where
  same : PolySame R C
  value : ∀ i j t, t < A.depth + B.depth - 1 → (polyMat A.nrows B.ncols R i j).coeff t =
    ((polyMat A.nrows A.ncols A * polyMat A.ncols B.ncols B) i j).coeff t
  frame : ∀ t i j, ¬ (t < A.depth + B.depth - 1 ∧ i < A.nrows ∧ j < B.ncols) → bitAt (R.x t) i j = bitAt (C.x t) i j

end M4rie.Spec
