import Verif.Spec.Rep
import Verif.Model.Conv

/-!
# The matrix stored in a sliced matrix

`SRep S M`: the sliced matrix `S` over `ff` stores the field element `M i j` at row `i`, column `j`: bit `k` of `M i j` is
the bit at `(i,j)` of the `k`-th GF(2)-matrix - *for all* `i j`, so `M` also describes padding bits and, for a window, the
surrounding parts of the parent matrix.
-/

namespace M4rie
open M4rie.Spec

structure SRep {ff : Gf2e} (S : Slice) (M : Nat → Nat → Elem ff) : Prop where
  ffEq : S.ff = ff
  depthEq : S.depth = ff.degree
  bit : ∀ k i j, bitAt (S.x k) i j = (M i j).1.getLsbD k

/-- same dimensions and field -/
structure SSameDim (A B : Slice) : Prop where
  nrows : A.nrows = B.nrows
  ncols : A.ncols = B.ncols
  fid : A.fid = B.fid

end M4rie
