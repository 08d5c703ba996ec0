import Verif.Spec.LinAlg

/-!
# PLE decompositions

`P*A = L*E` stored compactly: `F` is the matrix after the decomposition, `P`, `Q` the arrays of
transpositions.
-/

namespace M4rie.Spec

variable {K : Type*} [Field K]

/-- the permutation performed on the rows by swapping rows `0` and `P 0`, then `1` and `P 1`, …, `n-1` and `P (n-1)`:
row `i` afterwards is row `rowPerm P n i` before. -/
def rowPerm (P : Nat → Nat) : Nat → Equiv.Perm Nat
  | 0 => 1
  | n + 1 => rowPerm P n * Equiv.swap n (P n)

/-- the lower triangular factor stored in `F`: on and below the diagonal -/
def lPart (F : Nat → Nat → K) (i k : Nat) : K := if k ≤ i then F i k else 0

/-- the echelon factor stored in `F`: row `k` has an implicit 1 in the pivot column `Q k` and the entries of `F` to its right -/
def ePart (Q : Nat → Nat) (F : Nat → Nat → K) (k j : Nat) : K := if j < Q k then 0 else if j = Q k then 1 else F k j

/-- `F`, `P`, `Q`, `r` are a PLE decomposition of `A` (`nr × nc`): `P*A = L*E` with `L` (`nr × r`) lower triangular with
non-zero diagonal and `E` (`r × nc`) in echelon form with pivots `Q 0 < … < Q (r-1)`; the positions of `F` belonging to neither
`L` nor `E` are zero. -/
structure IsPLE (nr nc r : Nat) (A F : Nat → Nat → K) (P Q : Nat → Nat) : Prop where
  le : r ≤ nr
  perm : ∀ i, i < nr → i ≤ P i ∧ P i < nr
  piv : ∀ i, i < nc → i ≤ Q i ∧ Q i < nc
  rle : r ≤ nc
  mono : ∀ i k, i < k → k < r → Q i < Q k
  diag : ∀ i, i < r → F i i ≠ 0
  prod : ∀ i j, i < nr → j < nc → A (rowPerm P nr i) j = ∑ k ∈ Finset.range r, lPart F i k * ePart Q F k j
  gap : ∀ i j, i < r → i < j → j ≤ Q i → F i j = 0
  rest : ∀ i j, r ≤ i → i < nr → r ≤ j → j < nc → F i j = 0

/-- the unit upper triangular factor stored in `G`: strictly above the diagonal, with implicit ones -/
def uPart (G : Nat → Nat → K) (k j : Nat) : K := if j < k then 0 else if j = k then 1 else G k j

/-- `G`, `P`, `Q`, `r` are a PLUQ decomposition of `A` (`nr × nc`): the matrix `A` with its rows permuted by `P` and its columns by
`Q` is `L*U` with `L` (`nr × r`) lower triangular with non-zero diagonal and `U` (`r × nc`) unit upper triangular; the positions of
`G` belonging to neither are zero. -/
structure IsPLUQ (nr nc r : Nat) (A G : Nat → Nat → K) (P Q : Nat → Nat) : Prop where
  le : r ≤ nr
  perm : ∀ i, i < nr → i ≤ P i ∧ P i < nr
  piv : ∀ i, i < nc → i ≤ Q i ∧ Q i < nc
  rle : r ≤ nc
  diag : ∀ i, i < r → G i i ≠ 0
  prod : ∀ i j, i < nr → j < nc → A (rowPerm P nr i) (rowPerm Q nc j) = ∑ k ∈ Finset.range r, lPart G i k * uPart G k j
  rest : ∀ i j, r ≤ i → i < nr → r ≤ j → j < nc → G i j = 0

end M4rie.Spec
