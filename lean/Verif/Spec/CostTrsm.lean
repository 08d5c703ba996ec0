import Mathlib.Data.Nat.Basic
import Mathlib.Data.Real.Basic
import Mathlib.Analysis.SpecialFunctions.Pow.Real

/-!
# What solving a triangular system and decomposing a matrix are reduced to
-/

namespace M4rie.Spec

/-- one of the calls the block recursion makes -/
inductive Call where
  /-- solving directly (tables or the schoolbook method) with an `n × n` triangular matrix and an `n × m` right hand side -/
  | solve (n m : Nat)
  /-- `mzed_addmul` or `mzd_slice_addmul` of an `m × k` by a `k × n` matrix -/
  | addmul (m k n : Nat)
  /-- decomposing an `m × n` matrix directly (`mzed_ple_newton_john`) -/
  | ple (m n : Nat)
  /-- bringing an `m × n` matrix into echelon form directly (`mzed_echelonize_naive` or `mzed_echelonize_newton_john`) -/
  | elim (m n : Nat)
  deriving DecidableEq

/-- the number of products of single entries the schoolbook method takes for it (for solving, twice that and more) -/
def Call.size : Call → Nat
  | .solve n m => n * n * m
  | .addmul m k n => m * k * n
  | .ple m n => m * n * n
  | .elim m n => m * n * min m n

/-- The premise "multiplication is fast, with exponent `ω`": an `x × y` by a `y × z` product costs at most `b L X^(ω-1)` whenever no dimension exceeds `L` and
two of them, the inner one among them, do not exceed `X ≤ L`.  This is what one gets by cutting the larger factor into `X × X` squares if those are multiplied
in time proportional to `X^ω`; for the schoolbook method `ω = 3`. -/
def FastMul (cost : Call → ℝ) (b ω : ℝ) : Prop :=
  ∀ x y z X L : Nat, X ≤ L → y ≤ X → min x z ≤ X → max x z ≤ L → cost (.addmul x y z) ≤ b * L * (X : ℝ) ^ (ω - 1)

/-- what the calls cost together if `cost c` is what `c` costs -/
noncomputable def callsCost (cost : Call → ℝ) (l : List Call) : ℝ := (l.map cost).sum

end M4rie.Spec
