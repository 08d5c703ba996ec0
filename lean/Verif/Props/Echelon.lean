import Verif.Proofs.Echelon

/-!
# Properties C34, C45: Gaussian elimination

`rowSpan nr nc M`, `rank`, `IsEchelon`, `IsRref` are the specification vocabulary of Spec/LinAlg.lean.
-/

namespace M4rie.Props
open M4rie M4rie.Spec

variable {ff : Gf2e} [IsField ff]

/-- **C34** `mzed_echelonize_naive(A,full)`: for every matrix the result is in row echelon form with
unit pivots (reduced if `full`), has the same row space, the same contents outside the matrix, and
the returned number is the rank of the input. -/
theorem C34_echelonize_naive {A : Mzed} {M : Nat → Nat → Elem ff} (h : Rep A M) (full : Bool) :
    ∃ (R : Mzed) (M' : Nat → Nat → Elem ff) (piv : Nat → Nat),
      mzedEchelonizeNaive A full = (R, rank A.nrows A.ncols M) ∧ SameDim R A ∧ Rep R M' ∧
      IsEchelon A.nrows A.ncols (rank A.nrows A.ncols M) M' piv ∧
      (full = true → IsRref A.nrows A.ncols (rank A.nrows A.ncols M) M' piv) ∧
      rowSpan A.nrows A.ncols M' = rowSpan A.nrows A.ncols M ∧
      (∀ i j, A.nrows ≤ i ∨ A.ncols ≤ j → M' i j = M i j) := by
  obtain ⟨X, r, piv, h1, h2, h3, h4, h5⟩ := echelonizeNaive_inv (⟨A.nrows, A.ncols, A.fid, M⟩ : Mat ff) full
  rw [← h.eq_pack'] at h1
  have hr : rank A.nrows A.ncols M = r := by
    have := h5.echelon.rank_eq
    have hs := h5.span
    unfold rank at this ⊢
    rw [hs] at this
    exact this
  rw [hr]
  exact ⟨X.pack, X.e, piv, h1, ⟨h2, h3, h4⟩, pack_rep X, h5.echelon, h5.rref, h5.span, h5.frame⟩

/-- the hypotheses are met, e.g. by any scalar matrix over GF(2^8); its rank is its size -/
example : ∃ ff, ∃ _ : IsField ff, ∃ (A : Mzed) (M : Nat → Nat → Elem ff), Rep A M ∧ A.nrows = 3 ∧ A.ncols = 5 ∧
    M 0 0 = 0 ∧ M 0 1 = 1 ∧ M 2 4 = 1 := by
  obtain ⟨ff, h, _⟩ := exists_aes
  exact ⟨ff, h, _, _, pack_rep ⟨3, 5, 0, fun i j => if j = i + 1 ∨ j = 2 * i then (if i = 0 ∧ j = 0 then 0 else 1) else 0⟩, rfl, rfl,
    by simp, by simp, by simp⟩

/-- **C45** on a matrix in row echelon form `mzed_first_zero_row` is the number of pivots, i.e. the rank. -/
theorem C45_echelon {A : Mzed} {M : Nat → Nat → Elem ff} (h : Rep A M) {r : Nat} {piv : Nat → Nat}
    (he : IsEchelon A.nrows A.ncols r M piv) :
    mzedFirstZeroRow A = rank A.nrows A.ncols M ∧ mzedFirstZeroRow A = r := by
  obtain ⟨h1, h2, h3⟩ := C45_first_zero_row h
  have key : mzedFirstZeroRow A = r := by
    apply le_antisymm
    · by_contra hlt
      obtain ⟨j, hj, hne⟩ := h3 (by omega)
      exact hne (he.zero _ (by omega) (by omega) j hj)
    · by_contra hlt
      have hlt' : r - 1 < r := by omega
      have := h2 (r - 1) (by omega) (by have := he.le; omega) (piv (r - 1)) (he.lt _ hlt')
      rw [he.one _ hlt'] at this
      exact one_ne_zero this
  exact ⟨by rw [key, he.rank_eq], key⟩

/-- **C45** with C34: after `mzed_echelonize_naive`, `mzed_first_zero_row` agrees with the rank of the input. -/
theorem C45_after_echelonize {A : Mzed} {M : Nat → Nat → Elem ff} (h : Rep A M) (full : Bool) :
    mzedFirstZeroRow (mzedEchelonizeNaive A full).1 = rank A.nrows A.ncols M := by
  obtain ⟨R, M', piv, h1, h2, h3, h4, -⟩ := C34_echelonize_naive h full
  rw [h1]
  rw [← h2.nrows, ← h2.ncols] at h4
  have := (C45_echelon h3 h4).2
  rw [this, h2.nrows, h2.ncols]

end M4rie.Props
