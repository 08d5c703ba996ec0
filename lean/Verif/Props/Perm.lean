import Verif.Proofs.Perm
import Verif.Props.NewtonJohn

/-!
# Property C38: permutations

`rowPerm P n` (Spec/Ple.lean) is the permutation obtained by performing the transpositions `(0 P[0])`, `(1 P[1])`, …,
`(n-1 P[n-1])` in this order: afterwards position `i` holds what was at position `rowPerm P n i`.
-/

namespace M4rie.Props
open M4rie M4rie.Spec

variable {ff : Gf2e} [IsField ff]

/-- rows of an `nr × nc` matrix rearranged: row `i` is row `ρ i` -/
def rowsOf (nc : Nat) (ρ : Equiv.Perm Nat) (M : Nat → Nat → Elem ff) : Nat → Nat → Elem ff := fun i j => if j < nc then M (ρ i) j else M i j
/-- columns of an `nr × nc` matrix rearranged -/
def colsOf (nr : Nat) (ρ : Equiv.Perm Nat) (M : Nat → Nat → Elem ff) : Nat → Nat → Elem ff := fun i j => if i < nr then M i (ρ j) else M i j

/-- **C38** if the entries of `P` stay within the matrix, rows (columns) are permuted among themselves, nothing outside moves. -/
theorem C38_permutes {P : Nat → Nat} {n m : Nat} (hn : n ≤ m) (h : ∀ i, i < n → P i < m) (i : Nat) :
    (i < m → rowPerm P n i < m ∧ (rowPerm P n)⁻¹ i < m) ∧ (m ≤ i → rowPerm P n i = i ∧ (rowPerm P n)⁻¹ i = i) := by
  have hge : ∀ i, m ≤ i → (rowPerm P n)⁻¹ i = i := fun i hi => by
    rw [Equiv.Perm.inv_eq_iff_eq]; exact (rowPerm_ge n hn h i hi).symm
  refine ⟨fun hi => ⟨rowPerm_lt n hn h i hi, ?_⟩, fun hi => ⟨rowPerm_ge n hn h i hi, hge i hi⟩⟩
  by_contra hc
  have h1 := rowPerm_ge n hn h ((rowPerm P n)⁻¹ i) (by omega)
  rw [show rowPerm P n ((rowPerm P n)⁻¹ i) = i from (rowPerm P n).apply_symm_apply i] at h1
  omega

section packed
variable {A : Mzed} {M : Nat → Nat → Elem ff} (hA : Rep A M) (P : Mzp)
include hA

/-- **C38** `mzed_apply_p_left` swaps the rows `i` and `P[i]` for `i = 0, 1, …`, whatever the lengths. -/
theorem C38_left : SameDim (mzedApplyPLeft A P) A ∧ Rep (mzedApplyPLeft A P) (rowsOf A.ncols (rowPerm P.val (min P.length A.nrows)) M) := by
  have := applyPLeft_pack (⟨A.nrows, A.ncols, A.fid, M⟩ : Mat ff) P
  rw [← hA.eq_pack'] at this
  rw [this]
  exact ⟨⟨rfl, rfl, rfl⟩, pack_rep _⟩

/-- **C38** `mzed_apply_p_left_trans` applies the inverse permutation. -/
theorem C38_left_trans :
    SameDim (mzedApplyPLeftTrans A P) A ∧ Rep (mzedApplyPLeftTrans A P) (rowsOf A.ncols (rowPerm P.val (min P.length A.nrows))⁻¹ M) := by
  have := applyPLeftTrans_pack (⟨A.nrows, A.ncols, A.fid, M⟩ : Mat ff) P
  rw [← hA.eq_pack'] at this
  rw [this]
  exact ⟨⟨rfl, rfl, rfl⟩, pack_rep _⟩

/-- **C38** `mzed_apply_p_right_trans` swaps the columns `i` and `P[i]` for `i = 0, 1, …`. -/
theorem C38_right_trans :
    SameDim (mzedApplyPRightTrans A P) A ∧ Rep (mzedApplyPRightTrans A P) (colsOf A.nrows (rowPerm P.val (min P.length A.ncols)) M) := by
  have := applyPRightTrans_pack (⟨A.nrows, A.ncols, A.fid, M⟩ : Mat ff) P
  rw [← hA.eq_pack'] at this
  rw [this]
  exact ⟨⟨rfl, rfl, rfl⟩, pack_rep _⟩

/-- **C38** `mzed_apply_p_right` applies the inverse permutation. -/
theorem C38_right : SameDim (mzedApplyPRight A P) A ∧ Rep (mzedApplyPRight A P) (colsOf A.nrows (rowPerm P.val (min P.length A.ncols))⁻¹ M) := by
  have := applyPRight_pack (⟨A.nrows, A.ncols, A.fid, M⟩ : Mat ff) P
  rw [← hA.eq_pack'] at this
  rw [this]
  exact ⟨⟨rfl, rfl, rfl⟩, pack_rep _⟩

/-- **C38** left: each direction undoes the other, word for word, for every array `P` (of any length). -/
theorem C38_left_inverse : mzedApplyPLeftTrans (mzedApplyPLeft A P) P = A ∧ mzedApplyPLeft (mzedApplyPLeftTrans A P) P = A := by
  have e := hA.eq_pack'
  set X : Mat ff := ⟨A.nrows, A.ncols, A.fid, M⟩
  rw [e, applyPLeft_pack, applyPLeftTrans_pack, applyPLeftTrans_pack, applyPLeft_pack, Mat.rowsBy_rowsBy, Mat.rowsBy_rowsBy]
  constructor
  · rw [show (X.rowsBy (rowPerm P.val (min P.length X.nrows))).nrows = X.nrows from rfl, mul_inv_cancel, Mat.rowsBy_id]
  · rw [show (X.rowsBy (rowPerm P.val (min P.length X.nrows))⁻¹).nrows = X.nrows from rfl, inv_mul_cancel, Mat.rowsBy_id]

/-- **C38** right: each direction undoes the other. -/
theorem C38_right_inverse : mzedApplyPRightTrans (mzedApplyPRight A P) P = A ∧ mzedApplyPRight (mzedApplyPRightTrans A P) P = A := by
  have e := hA.eq_pack'
  set X : Mat ff := ⟨A.nrows, A.ncols, A.fid, M⟩
  rw [e, applyPRight_pack, applyPRightTrans_pack, applyPRightTrans_pack, applyPRight_pack, Mat.colsBy_colsBy, Mat.colsBy_colsBy]
  constructor
  · rw [show (X.colsBy (rowPerm P.val (min P.length X.ncols))⁻¹).ncols = X.ncols from rfl, inv_mul_cancel, Mat.colsBy_id]
  · rw [show (X.colsBy (rowPerm P.val (min P.length X.ncols))).ncols = X.ncols from rfl, mul_inv_cancel, Mat.colsBy_id]
end packed

section sliced
variable {A : Slice} {M : Nat → Nat → Elem ff} (hA : SRep A M) (P : Mzp)
include hA

/-- **C38** `mzd_slice_apply_p_left`, `_left_trans`, `_right_trans`, `_right`: the same effect on sliced matrices. -/
theorem C38_slice :
    (SSameDim (mzdSliceApplyPLeft A P) A ∧ SRep (mzdSliceApplyPLeft A P) (rowsOf A.ncols (rowPerm P.val (min P.length A.nrows)) M)) ∧
    (SSameDim (mzdSliceApplyPLeftTrans A P) A ∧ SRep (mzdSliceApplyPLeftTrans A P) (rowsOf A.ncols (rowPerm P.val (min P.length A.nrows))⁻¹ M)) ∧
    (SSameDim (mzdSliceApplyPRightTrans A P) A ∧ SRep (mzdSliceApplyPRightTrans A P) (colsOf A.nrows (rowPerm P.val (min P.length A.ncols)) M)) ∧
    (SSameDim (mzdSliceApplyPRight A P) A ∧ SRep (mzdSliceApplyPRight A P) (colsOf A.nrows (rowPerm P.val (min P.length A.ncols))⁻¹ M)) := by
  have e := hA.eq_spack'
  set X : Mat ff := ⟨A.nrows, A.ncols, A.fid, M⟩
  have h1 := sliceApplyPLeft_spack X P
  have h2 := sliceApplyPLeftTrans_spack X P
  have h3 := sliceApplyPRightTrans_spack X P
  have h4 := sliceApplyPRight_spack X P
  rw [← e] at h1 h2 h3 h4
  rw [h1, h2, h3, h4]
  exact ⟨⟨⟨rfl, rfl, rfl⟩, spack_rep _⟩, ⟨⟨rfl, rfl, rfl⟩, spack_rep _⟩, ⟨⟨rfl, rfl, rfl⟩, spack_rep _⟩, ⟨rfl, rfl, rfl⟩, spack_rep _⟩

/-- **C38** sliced: each direction undoes the other. -/
theorem C38_slice_inverse :
    mzdSliceApplyPLeftTrans (mzdSliceApplyPLeft A P) P = A ∧ mzdSliceApplyPLeft (mzdSliceApplyPLeftTrans A P) P = A ∧
    mzdSliceApplyPRightTrans (mzdSliceApplyPRight A P) P = A ∧ mzdSliceApplyPRight (mzdSliceApplyPRightTrans A P) P = A := by
  have e := hA.eq_spack'
  set X : Mat ff := ⟨A.nrows, A.ncols, A.fid, M⟩
  rw [e, sliceApplyPLeft_spack, sliceApplyPLeftTrans_spack, sliceApplyPLeftTrans_spack, sliceApplyPLeft_spack, sliceApplyPRight_spack,
    sliceApplyPRightTrans_spack, sliceApplyPRightTrans_spack, sliceApplyPRight_spack, Mat.rowsBy_rowsBy, Mat.rowsBy_rowsBy, Mat.colsBy_colsBy, Mat.colsBy_colsBy]
  refine ⟨?_, ?_, ?_, ?_⟩
  · rw [show (X.rowsBy (rowPerm P.val (min P.length X.nrows))).nrows = X.nrows from rfl, mul_inv_cancel, Mat.rowsBy_id]
  · rw [show (X.rowsBy (rowPerm P.val (min P.length X.nrows))⁻¹).nrows = X.nrows from rfl, inv_mul_cancel, Mat.rowsBy_id]
  · rw [show (X.colsBy (rowPerm P.val (min P.length X.ncols))⁻¹).ncols = X.ncols from rfl, inv_mul_cancel, Mat.colsBy_id]
  · rw [show (X.colsBy (rowPerm P.val (min P.length X.ncols))).ncols = X.ncols from rfl, mul_inv_cancel, Mat.colsBy_id]

/-- **C38** `mzd_slice_apply_p_right_trans_tri`: row `i` undergoes only the column transpositions `(c P[c])` with `c > i`. -/
theorem C38_slice_tri : SSameDim (mzdSliceApplyPRightTransTri A P) A ∧ SRep (mzdSliceApplyPRightTransTri A P)
    (fun i j => if i < A.nrows then M i (rowPerm (fun c => if i < c then P.val c else c) A.ncols j) else M i j) := by
  have := sliceApplyPRightTransTri_spack (⟨A.nrows, A.ncols, A.fid, M⟩ : Mat ff) P
  rw [← hA.eq_spack'] at this
  rw [this]
  exact ⟨⟨rfl, rfl, rfl⟩, spack_rep _⟩

/-- **C38** packed and sliced matrices with equal entries stay equal. -/
theorem C38_packed_eq_sliced {B : Mzed} (hB : Rep B M) (hr : B.nrows = A.nrows) (hc : B.ncols = A.ncols) :
    (∃ N : Nat → Nat → Elem ff, Rep (mzedApplyPLeft B P) N ∧ SRep (mzdSliceApplyPLeft A P) N) ∧
    (∃ N : Nat → Nat → Elem ff, Rep (mzedApplyPLeftTrans B P) N ∧ SRep (mzdSliceApplyPLeftTrans A P) N) ∧
    (∃ N : Nat → Nat → Elem ff, Rep (mzedApplyPRight B P) N ∧ SRep (mzdSliceApplyPRight A P) N) ∧
    (∃ N : Nat → Nat → Elem ff, Rep (mzedApplyPRightTrans B P) N ∧ SRep (mzdSliceApplyPRightTrans A P) N) := by
  obtain ⟨h1, h2, h3, h4⟩ := C38_slice hA P
  have g1 := (C38_left hB P).2
  have g2 := (C38_left_trans hB P).2
  have g3 := (C38_right_trans hB P).2
  have g4 := (C38_right hB P).2
  rw [hr, hc] at g1 g2 g3 g4
  exact ⟨⟨_, g1, h1.2⟩, ⟨_, g2, h2.2⟩, ⟨_, g4, h4.2⟩, ⟨_, g3, h3.2⟩⟩
end sliced

/-- a permutation of length 5 (longer than the 3 rows, shorter than the 70 columns) which is not its own inverse -/
example : ∃ ff, ∃ _ : IsField ff, ∃ (A : Mzed) (S : Slice) (M : Nat → Nat → Elem ff) (P : Mzp), Rep A M ∧ SRep S M ∧ S.nrows = A.nrows ∧
    A.nrows = 3 ∧ A.ncols = 70 ∧ P.length = 5 ∧ (∀ i, i < min P.length A.nrows → P.val i < A.nrows) ∧ M 0 1 ≠ M 2 1 ∧
    rowPerm P.val 3 0 = 1 ∧ rowPerm P.val 3 1 = 2 ∧ rowPerm P.val 3 2 = 0 := by
  obtain ⟨ff, h, hd⟩ := exists_aes
  refine ⟨ff, h, _, _, _, ⟨5, fun i => if i = 0 then 1 else if i = 1 then 2 else i⟩, pack_rep ⟨3, 70, 0, fun i _ => if i = 0 then 1 else 0⟩,
    spack_rep ⟨3, 70, 0, fun i _ => if i = 0 then 1 else 0⟩, rfl, rfl, rfl, rfl, ?_, by simp, by decide, by decide, by decide⟩
  intro i hi
  show (if i = 0 then 1 else if i = 1 then 2 else i) < 3
  have : i < 3 := lt_of_lt_of_le hi (min_le_right _ _)
  split_ifs <;> omega

end M4rie.Props
