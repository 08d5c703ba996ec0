import Verif.Proofs.Ple
import Verif.Props.NewtonJohn

/-!
# Properties C31, C32: PLE decomposition, iterative algorithms

`IsPLE` (Spec/Ple.lean) is the definition of a compactly stored decomposition `P*A = L*E`.
-/

namespace M4rie.Props
open M4rie M4rie.Spec

variable {ff : Gf2e} [IsField ff]

/-- a PLE routine called on `A` (contents `M`) with arrays `P`, `Q` returned `res`: the result is a decomposition, the returned
number is the rank, `E` is an echelon basis of the row space of the input, nothing outside the matrix and the arrays changes. -/
def DecomposedPLE (A : Mzed) (M : Nat → Nat → Elem ff) (P Q : Nat → Nat) (res : Mzed × (Nat → Nat) × (Nat → Nat) × Nat) : Prop :=
  ∃ (R : Mzed) (F : Nat → Nat → Elem ff) (P' Q' : Nat → Nat), res = (R, P', Q', rank A.nrows A.ncols M) ∧ SameDim R A ∧ Rep R F ∧
    IsPLE A.nrows A.ncols (rank A.nrows A.ncols M) M F P' Q' ∧
    IsEchelon (rank A.nrows A.ncols M) A.ncols (rank A.nrows A.ncols M) (ePart Q' F) Q' ∧
    rowSpan A.nrows A.ncols M = rowSpan (rank A.nrows A.ncols M) A.ncols (ePart Q' F) ∧
    (∀ i j, ¬ (i < A.nrows ∧ j < A.ncols) → F i j = M i j) ∧ (∀ i, A.nrows ≤ i → P' i = P i) ∧ (∀ i, A.ncols ≤ i → Q' i = Q i)

theorem PleOk.decomposed {X : Mat ff} {P Q : Nat → Nat} {res : Mzed × (Nat → Nat) × (Nat → Nat) × Nat} (h : PleOk X P Q res) :
    DecomposedPLE X.pack X.e P Q res := by
  obtain ⟨Z, P', Q', r, h1, h2, h3, h4, h5, h6, -⟩ := h
  have hr : rank X.pack.nrows X.pack.ncols X.e = r := h3.rank_eq
  unfold DecomposedPLE
  rw [hr]
  exact ⟨Z.pack, Z.e, P', Q', h1, ⟨h2.nrows, h2.ncols, h2.fid⟩, pack_rep Z, h3, h3.echelon, h3.rowSpan_eq, h4, h5, h6⟩

/-- **C31** `mzed_ple_naive` computes a PLE decomposition and the rank of every matrix. -/
theorem C31_ple_naive {A : Mzed} {M : Nat → Nat → Elem ff} (h : Rep A M) (P Q : Nat → Nat) :
    DecomposedPLE A M P Q (mzedPleNaive A P Q) := by
  have := PleOk.decomposed (pleNaive_pack ⟨A.nrows, A.ncols, A.fid, M⟩ P Q)
  rwa [← h.eq_pack'] at this

/-- **C32** `mzed_ple_newton_john` computes a PLE decomposition and the rank of every matrix. -/
theorem C32_ple_newton_john {cb : Codebook} (hcb : cb.Ok ff.degree) {A : Mzed} {M : Nat → Nat → Elem ff} (h : Rep A M) (P Q : Nat → Nat) :
    DecomposedPLE A M P Q (mzedPleNewtonJohn cb A P Q) := by
  have := PleOk.decomposed (pleNj_pack hcb ⟨A.nrows, A.ncols, A.fid, M⟩ P Q)
  rwa [← h.eq_pack'] at this

/-- **C31/C32** the pivot columns of a PLE decomposition are determined by the input: any two decompositions of the same matrix
have the same rank and the same pivot columns. -/
theorem C31_pivots_unique {K : Type*} [Field K] {nr nc r r' : Nat} {A F F' : Nat → Nat → K} {P Q P' Q' : Nat → Nat}
    (h : IsPLE nr nc r A F P Q) (h' : IsPLE nr nc r' A F' P' Q') : r = r' ∧ ∀ i, i < r → Q i = Q' i := by
  have hr : r = r' := by rw [← h.rank_eq, ← h'.rank_eq]
  subst hr
  have hs : rowSpan r nc (ePart Q F) = rowSpan r nc (ePart Q' F') := by rw [← h.rowSpan_eq, ← h'.rowSpan_eq]
  refine ⟨rfl, strictMono_enum h.mono h'.mono ?_ ?_⟩
  · intro i hi
    exact IsEchelon.leading h'.echelon (v := rowVec nc (ePart Q F) i) (by rw [← hs]; exact rowVec_mem hi) (h.echelon.lt i hi)
      (by have := h.echelon.one i hi; unfold rowVec; simp [this]) (fun j _ hj => h.echelon.left i hi j hj)
  · intro i hi
    exact IsEchelon.leading h.echelon (v := rowVec nc (ePart Q' F') i) (by rw [hs]; exact rowVec_mem hi) (h'.echelon.lt i hi)
      (by have := h'.echelon.one i hi; unfold rowVec; simp [this]) (fun j _ hj => h'.echelon.left i hi j hj)

/-- a 3x4 matrix whose first pivot needs a row swap and whose second pivot column is not the second column -/
example : ∃ ff, ∃ _ : IsField ff, ∃ cb : Codebook, cb.Ok ff.degree ∧ ∃ (A : Mzed) (M : Nat → Nat → Elem ff), Rep A M ∧
    A.nrows = 3 ∧ A.ncols = 4 ∧ M 0 0 = 0 ∧ M 1 0 = 1 ∧ M 0 2 = 1 := by
  obtain ⟨ff, h, hd⟩ := exists_aes
  exact ⟨ff, h, grayCode, grayCode_ok _, _, _, pack_rep ⟨3, 4, 0, fun i j => if (i = 1 ∧ j = 0) ∨ (i = 0 ∧ j = 2) then 1 else 0⟩, rfl, rfl, by simp, by simp, by simp⟩

end M4rie.Props
