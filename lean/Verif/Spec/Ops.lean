import Mathlib.Data.Nat.Basic

/-!
# Counting operations in the field

A computation together with the number of products of two elements of GF(2^e) and the number of sums of two elements of GF(2^e) it makes.  Multiplying by 0 or 1
and adding nothing is not counted where the code skips it.
-/

namespace M4rie.Spec

structure Counted (α : Type) where
  /-- the result -/
  val : α
  /-- products of two elements -/
  muls : Nat
  /-- sums of two elements -/
  adds : Nat

instance : Monad Counted where
  pure a := ⟨a, 0, 0⟩
  bind x f := ⟨(f x.val).val, x.muls + (f x.val).muls, x.adds + (f x.val).adds⟩

/-- `x` computes `v` with at most `a` products and at most `b` sums of elements. -/
structure Costs {α : Type} (x : Counted α) (v : α) (a b : Nat) : Prop where
  val : x.val = v
  muls : x.muls ≤ a
  adds : x.adds ≤ b

end M4rie.Spec
