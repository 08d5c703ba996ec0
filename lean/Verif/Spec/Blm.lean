import Verif.Model.Blm
import Verif.Spec.Gf2
import Mathlib.LinearAlgebra.Matrix.Notation
import Mathlib.LinearAlgebra.LinearIndependent.Defs
import Verif.Spec.Ple

/-!
# Specification: bilinear maps and what is assumed of M4RI in blm.c
-/

namespace M4rie.Spec
open M4rie

/-- the `nr × nc` matrix over GF(2) stored in the words `W` -/
def gf2Mat (nr nc : Nat) (W : Nat → Nat → Word) : Matrix (Fin nr) (Fin nc) (ZMod 2) := fun i j => gf2Entry W i j

/-- The value at `X[j]` of the bilinear map `(H,F,G)`: `∑ᵢ H[j,i] * (∑ₐ F[i,a] A[a]) * (∑_b G[i,b] B[b])`. -/
def blmValue (f : Blm) (m k n : Nat) (A B : Nat → Nat → Nat → Word) (j : Nat) : Matrix (Fin m) (Fin n) (ZMod 2) :=
  ∑ i ∈ Finset.range f.F.nrows, gf2Entry f.H.w j i •
    ((∑ a ∈ Finset.range f.F.ncols, gf2Entry f.F.w i a • gf2Mat m k (A a)) *
     (∑ b ∈ Finset.range f.G.ncols, gf2Entry f.G.w i b • gf2Mat k n (B b)))

/-- one instruction of a straight-line program, on one bit of every matrix -/
def djbBit (V : Nat → Bool) (o : DjbOp) (W : Nat → Bool) : Nat → Bool :=
  fun t => if t = o.target then (W t).xor (if o.fromSource then V o.source else W o.source) else W t

/-- M4RI `djb_compile(F)` (contract): run from the last instruction to the first, with all targets starting at `0`, the program
computes `F * V`; its instructions stay in bounds and no target is read before it has been written. -/
structure DjbComputes (nr nc : Nat) (F : Nat → Nat → Word) (prog : List DjbOp) : Prop where
  target : ∀ o ∈ prog, o.target < nr
  source : ∀ o ∈ prog, o.source < if o.fromSource then nc else nr
  written : ∀ l o l', prog = l ++ o :: l' → o.fromSource = false → ∃ o' ∈ l', o'.target = o.source
  eval : ∀ V t, t < nr → prog.foldr (djbBit V) (fun _ => false) t = xorRange (fun j => bitAt F t j && V j) nc

/-- row `i` of the `m`-column bit matrix `C` as a vector over GF(2) -/
def gf2Row (m : Nat) (C : Nat → Nat → Word) (i : Nat) : Fin m → ZMod 2 := fun j => gf2Entry C i j

/-- M4RI `mzd_ple` (what `blm.c` uses of it): `rank` and the array of transpositions `P`, such that after permuting the rows of the
`m × m` matrix `C` by `P` its first `rank` rows are a basis of its row space. -/
structure RankProfile (m : Nat) (C : Nat → Nat → Word) (rank : Nat) (P : Nat → Nat) : Prop where
  le : rank ≤ m
  perm : ∀ i, i < m → i ≤ P i ∧ P i < m
  indep : LinearIndependent (ZMod 2) fun k : Fin rank => gf2Row m C (rowPerm P m k)
  span : ∀ i, i < m → gf2Row m C i ∈ Submodule.span (ZMod 2) (Set.range fun k : Fin rank => gf2Row m C (rowPerm P m k))

/-- what is assumed of the M4RI functions used by blm.c -/
structure BlmEnvOk (env : BlmEnv) : Prop where
  ple : ∀ m C, RankProfile m C (env.ple m C).1 (env.ple m C).2
  inv : ∀ m C, IsUnit (gf2Mat m m C) → gf2Mat m m C * gf2Mat m m (env.inv m C) = 1
  djb : ∀ nr nc F, DjbComputes nr nc F (env.djb nr nc F)

/-- The products of the coefficients of `x^v` and `x^w`: the vector `(F[k,v] * G[k,w])_k`. -/
def pairVec (m : Nat) (F G : Nat → Nat → Word) (v w : Nat) : Fin m → ZMod 2 := fun k => gf2Entry F k v * gf2Entry G k w

/-- The pairs `v ≤ w` tried by `_blm_finish_polymult` span the whole space. -/
def PairsSpan (m fn gn : Nat) (F G : Nat → Nat → Word) : Prop :=
  Submodule.span (ZMod 2) {x | ∃ v w, v ≤ w ∧ v < fn ∧ w < gn ∧ x = pairVec m F G v w} = ⊤

/-- The bilinear map multiplies polynomials with `fn` and `gn` coefficients: `∑ₖ H[i,k] F[k,v] G[k,w]` is the coefficient of `x^i`
of `x^(v+w)`. -/
def PolyExact (fn gn : Nat) (f : Blm) : Prop :=
  f.H.nrows = fn + gn - 1 ∧ f.H.ncols = f.F.nrows ∧ f.F.nrows = f.G.nrows ∧ f.F.ncols = fn ∧ f.G.ncols = gn ∧
  ∀ i v w, i < fn + gn - 1 → v < fn → w < gn →
    ∑ k ∈ Finset.range f.F.nrows, gf2Entry f.H.w i k * (gf2Entry f.F.w k v * gf2Entry f.G.w k w) = if v + w = i then 1 else 0

end M4rie.Spec
