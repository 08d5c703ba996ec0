import Mathlib.Data.Nat.Basic

/-!
# Specification: an order on matrices

`MatBefore m n M N`: in the first of the `m` rows in which `M` and `N` differ, in the last of the `n` columns in which that row differs, `M` has the smaller entry.
-/

namespace M4rie.Spec

/-- the entry in the last of the `n` places in which `f` and `g` differ is smaller in `f` -/
def RowBefore (n : Nat) (f g : Nat → Nat) : Prop := ∃ j, j < n ∧ f j < g j ∧ ∀ j', j < j' → j' < n → f j' = g j'

def MatBefore (m n : Nat) (M N : Nat → Nat → Nat) : Prop := ∃ i, i < m ∧ (∀ i', i' < i → ∀ j, j < n → M i' j = N i' j) ∧ RowBefore n (M i) (N i)

/-- the matrices agree in all entries -/
def MatSame (m n : Nat) (M N : Nat → Nat → Nat) : Prop := ∀ i, i < m → ∀ j, j < n → M i j = N i j

end M4rie.Spec
