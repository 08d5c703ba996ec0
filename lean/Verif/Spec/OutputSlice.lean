import Verif.Spec.Slice
import Verif.Model.OutputSlice

/-!
# Specification for the output arguments of functions on sliced matrices

As `Spec/Output.lean`, with `SRep` instead of `Rep`.
-/

namespace M4rie.Spec
open M4rie M4rie.Store M4rie.SStore

variable {ff : Gf2e} [IsField ff]

/-- the output argument `c` is `NULL` (then the new object is none of the objects `used`) or an `m × n` matrix over the same
field; `M0` is what it contains (zeros for a new matrix), inside and outside its columns -/
def SReceives (s : SObjs) (c : Out) (used : List Nat) (fid m n : Nat) (M0 : Nat → Nat → Elem ff) : Prop :=
  match c with
  | .null k => k ∉ used ∧ M0 = fun _ _ => 0
  | .given k => SRep (s k) M0 ∧ (s k).nrows = m ∧ (s k).ncols = n ∧ (s k).fid = fid

/-- in `s'` the returned matrix is `m × n` with entries `N`, nothing outside it and no other object changed -/
structure SWrites (s s' : SObjs) (c : Out) (fid m n : Nat) (M0 N : Nat → Nat → Elem ff) : Prop where
  others : ∀ k, k ≠ c.id → s' k = s k
  nrows : (s' c.id).nrows = m
  ncols : (s' c.id).ncols = n
  fid : (s' c.id).fid = fid
  rep : SRep (s' c.id) (fun i j => if i < m ∧ j < n then N i j else M0 i j)

end M4rie.Spec
