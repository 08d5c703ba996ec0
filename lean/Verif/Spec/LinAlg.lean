import Mathlib.LinearAlgebra.Dimension.Constructions
import Mathlib.LinearAlgebra.FiniteDimensional.Lemmas
import Mathlib.LinearAlgebra.FreeModule.Finite.Basic

/-!
# Row spaces and echelon forms

Specification vocabulary for elimination.  A matrix is a function `M : Nat → Nat → K` of which the
entries `i < nr`, `j < nc` are meant.
-/

namespace M4rie.Spec

variable {K : Type*} [Field K]

/-- row `i` as a vector of length `nc` -/
def rowVec (nc : Nat) (M : Nat → Nat → K) (i : Nat) : Fin nc → K := fun j => M i j

/-- the row space -/
def rowSpan (nr nc : Nat) (M : Nat → Nat → K) : Submodule K (Fin nc → K) :=
  Submodule.span K (Set.range fun i : Fin nr => rowVec nc M i)

/-- the rank (dimension of the row space) -/
noncomputable def rank (nr nc : Nat) (M : Nat → Nat → K) : Nat := Module.finrank K (rowSpan nr nc M)

/-- Row echelon form with `r` non-zero rows and unit pivots in columns `piv 0 < piv 1 < … < piv (r-1)`. -/
structure IsEchelon (nr nc r : Nat) (M : Nat → Nat → K) (piv : Nat → Nat) : Prop where
  le : r ≤ nr
  lt : ∀ i, i < r → piv i < nc
  mono : ∀ i k, i < k → k < r → piv i < piv k
  one : ∀ i, i < r → M i (piv i) = 1
  left : ∀ i, i < r → ∀ j, j < piv i → M i j = 0
  zero : ∀ i, r ≤ i → i < nr → ∀ j, j < nc → M i j = 0

/-- Reduced row echelon form: moreover a pivot is the only non-zero entry of its column. -/
structure IsRref (nr nc r : Nat) (M : Nat → Nat → K) (piv : Nat → Nat) : Prop extends IsEchelon nr nc r M piv where
  above : ∀ i, i < r → ∀ k, k < nr → k ≠ i → M k (piv i) = 0

end M4rie.Spec

namespace M4rie.Spec
variable {K : Type*} [Field K]

/-- `L*X = B` for the lower triangle (diagonal included) of `L`, `n × n`, and `n × m` matrices `X`, `B` -/
def SolvesLower (n m : Nat) (L X B : Nat → Nat → K) : Prop :=
  ∀ i j, i < n → j < m → ∑ k ∈ Finset.range (i + 1), L i k * X k j = B i j

/-- `U*X = B` for the upper triangle (diagonal included) of `U` -/
def SolvesUpper (n m : Nat) (U X B : Nat → Nat → K) : Prop :=
  ∀ i j, i < n → j < m → ∑ k ∈ Finset.Ico i n, U i k * X k j = B i j

end M4rie.Spec
