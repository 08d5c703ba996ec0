import Verif.Model.Gf2x

/-!
# Specification vocabulary for packed matrices

`laneVal w v k` is the number stored in the `k`-th group of `w` bits of the word `v`;
`entryOf w words i j` is the number stored in row `i`, element position `j`, when elements are
packed `64/w` to a word.  `j` ranges over all positions: positions `≥ ncols` are padding bits of
the last word, or columns of the surrounding matrix if the matrix is a window.
-/

namespace M4rie.Spec

/-- bits `k*w, ..., k*w+w-1` of `v` as a number. -/
def laneVal (w : Nat) (v : Word) (k : Nat) : Word := BitVec.ofNat 64 (v.toNat / 2 ^ (k * w) % 2 ^ w)

/-- element `j` of row `i`. -/
def entryOf (w : Nat) (words : Nat → Nat → Word) (i j : Nat) : Word :=
  laneVal w (words i (j / (64 / w))) (j % (64 / w))

/-- bit `p` of row `i`. -/
def bitOf (words : Nat → Nat → Word) (i p : Nat) : Bool := (words i (p / 64)).getLsbD (p % 64)

end M4rie.Spec
