import Mathlib.Data.ZMod.Basic
import Verif.Model.M4ri

/-!
# Specification: matrices over GF(2)

`gf2Entry W i j` is the entry at row `i`, column `j` of the bit matrix stored in the words `W`, as an element of `ZMod 2`.
-/

namespace M4rie.Spec

/-- a bit as an element of GF(2) -/
def gf2 (b : Bool) : ZMod 2 := if b then 1 else 0

/-- entry of a bit matrix -/
def gf2Entry (W : Nat → Nat → Word) (i j : Nat) : ZMod 2 := gf2 (bitAt W i j)

end M4rie.Spec
