import Mathlib.Algebra.Polynomial.Degree.Lemmas
import Mathlib.Algebra.Polynomial.BigOperators
import Mathlib.Data.ZMod.Basic

/-!
# Specification: words as polynomials over GF(2)

A 64-bit word `w` encodes the polynomial whose coefficient of `X^i` is bit `i` of `w`.
-/

namespace M4rie.Spec

open Polynomial

/-- The polynomial over GF(2) encoded by a word. -/
noncomputable def toPoly {n : Nat} (w : BitVec n) : (ZMod 2)[X] :=
  ∑ i ∈ Finset.range n, if w.getLsbD i then X ^ i else 0

end M4rie.Spec
