import Mathlib.Algebra.BigOperators.Group.List.Basic
import Mathlib.Algebra.Order.Group.Int

/-!
# How much memory a computation takes

A computation leaves a trace of the blocks of memory it allocates and releases, with their sizes in words of 64 bits.
-/

namespace M4rie.Spec

inductive Event where
  /-- a block of so many words is allocated -/
  | get (words : Nat)
  /-- a block of so many words is released -/
  | put (words : Nat)
  deriving DecidableEq

/-- what it adds to the memory in use -/
def Event.delta : Event → Int
  | .get n => n
  | .put n => -n

/-- the memory in use after these events, on top of what was in use before -/
def inUse (l : List Event) : Int := (l.map Event.delta).sum

/-- the largest amount of memory in use at any time while these events happen, on top of what was in use before -/
def peak : List Event → Int
  | [] => 0
  | e :: l => max 0 (e.delta + peak l)

/-- A computation that keeps a trace. -/
abbrev Traced (α : Type) := StateT (List Event) Option α

/-- `x` is a version with a trace of the computation `o`: it has the same result (or fails like it), and appends exactly `l` to the trace. -/
def Traces {α : Type} (x : Traced α) (o : Option α) (l : List Event) : Prop := ∀ s, x s = o.map fun a => (a, s ++ l)

/-- `x` has the same result as `o` (or fails like it); the trace is `l` whatever happened before, and what is allocated is released. -/
def Balanced {α : Type} (x : Traced α) (o : Option α) (l : List Event) : Prop := Traces x o l ∧ inUse l = 0

/-- words of an `m × n` matrix over GF(2) -/
def gf2Words (m n : Nat) : Nat := m * ((n + 63) / 64)

/-- words of a packed `m × n` matrix with `w` bits for each element -/
def packedWords (w m n : Nat) : Nat := m * ((w * n + 63) / 64)

/-- words of a sliced `m × n` matrix over GF(2^e) -/
def slicedWords (e m n : Nat) : Nat := e * gf2Words m n

/-- words of a Newton-John table for `n` columns over GF(2^e): `2^e` positions of 32 bits each, all `2^e` multiples of a row, and the `e` multiples they are combined from -/
def tableWords (e w n : Nat) : Nat := 2 ^ e / 2 + packedWords w (2 ^ e) n + packedWords w e n

/-- words of the array of a permutation of `n` elements, 32 bits each -/
def permWords (n : Nat) : Nat := (n + 1) / 2

end M4rie.Spec
