import Mathlib.Algebra.BigOperators.Group.Finset.Basic

/-!
# What a multiplication costs

A multiplication over GF(2^e) is reduced to products of two kinds: products of matrices over GF(2) (done by M4RI) and Newton-John products
(newton_john.c).  A log records, in order, which of them are made and for which dimensions.
-/

namespace M4rie.Spec

/-- one product of an `m × k` matrix by a `k × n` matrix -/
inductive Product where
  /-- `mzd_mul` or `mzd_addmul` of M4RI, over GF(2) -/
  | gf2 (m k n : Nat)
  /-- `_mzed_mul_newton_john`, over GF(2^e) -/
  | newtonJohn (m k n : Nat)
  deriving DecidableEq

/-- the number of products of single entries the schoolbook method takes for it -/
def Product.size : Product → Nat
  | .gf2 m k n => m * k * n
  | .newtonJohn m k n => m * k * n

/-- products of entries, all together -/
def totalSize (l : List Product) : Nat := (l.map Product.size).sum

/-- The documented number of products over GF(2) that a product over GF(2^e) takes (mzd_ptr.h:128-229). -/
def documentedProducts : Nat → Nat
  | 2 => 3
  | 3 => 6
  | 4 => 9
  | 5 => 13
  | 6 => 17
  | 7 => 22
  | 8 => 27
  | 9 => 31
  | 10 => 36
  | 11 => 40
  | 12 => 45
  | 13 => 49
  | 14 => 55
  | 15 => 60
  | 16 => 64
  | e => e * e

/-- The number of products documented for a Chinese remaindering scheme (`blm_cost_crt`, blm.h:63-77): `p 0` coefficients at infinity, and `p d` moduli of degree `d`. -/
def schemeProducts (p : Nat → Nat) : Nat := documentedProducts (p 0) + ∑ d ∈ Finset.range 16, documentedProducts (d + 1) * p (d + 1)

/-- A computation that keeps a log of products. -/
abbrev Logged (α : Type) := StateT (List Product) Option α

/-- `x` is a version with a log of the computation `o`: it has the same result (or fails like it), and appends exactly `l` to the log. -/
def Logs {α : Type} (x : Logged α) (o : Option α) (l : List Product) : Prop := ∀ s, x s = o.map fun a => (a, s ++ l)

end M4rie.Spec
