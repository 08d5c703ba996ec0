import Verif.Proofs.Trsm
import Verif.Props.NewtonJohn

/-!
# Property C29: triangular solving, packed matrices

`SolvesLower n m L X B` (Spec/LinAlg.lean): `L*X = B` where only the lower triangle of `L` enters.
-/

namespace M4rie.Props
open M4rie M4rie.Spec

variable {ff : Gf2e} [IsField ff]

/-- **C29** the solution of a triangular system with non-zero diagonal is unique. -/
theorem C29_unique {K : Type*} [Field K] {n m : Nat} {L X Y B : Nat → Nat → K} (hd : ∀ i, i < n → L i i ≠ 0) :
    (SolvesLower n m L X B → SolvesLower n m L Y B → ∀ i j, i < n → j < m → X i j = Y i j) ∧
    (SolvesUpper n m L X B → SolvesUpper n m L Y B → ∀ i j, i < n → j < m → X i j = Y i j) :=
  ⟨fun h h' => SolvesLower.unique hd h h', fun h h' => SolvesUpper.unique hd h h'⟩

/-- what all the lower solvers do: `R` holds the solution `X` of `L*X = B` and nothing else changes -/
def SolvedLower (R B : Mzed) (L MB : Nat → Nat → Elem ff) : Prop :=
  ∃ X : Nat → Nat → Elem ff, Rep R X ∧ SameDim R B ∧ SolvesLower B.nrows B.ncols L X MB ∧
    ∀ i j, ¬ (i < B.nrows ∧ j < B.ncols) → X i j = MB i j

/-- what all the upper solvers do -/
def SolvedUpper (R B : Mzed) (U MB : Nat → Nat → Elem ff) : Prop :=
  ∃ X : Nat → Nat → Elem ff, Rep R X ∧ SameDim R B ∧ SolvesUpper B.nrows B.ncols U X MB ∧
    ∀ i j, ¬ (i < B.nrows ∧ j < B.ncols) → X i j = MB i j

theorem toSolvedLower {R : Mzed} {B : Mat ff} {L : Nat → Nat → Elem ff}
    (h : ∃ X : Mat ff, R = X.pack ∧ SameMat X B ∧ Frame X B ∧ SolvesLower B.nrows B.ncols L X.e B.e) : SolvedLower R B.pack L B.e := by
  obtain ⟨X, rfl, h2, h3, h4⟩ := h
  exact ⟨X.e, pack_rep X, ⟨h2.nrows, h2.ncols, h2.fid⟩, h4, h3⟩

theorem toSolvedUpper {R : Mzed} {B : Mat ff} {L : Nat → Nat → Elem ff}
    (h : ∃ X : Mat ff, R = X.pack ∧ SameMat X B ∧ Frame X B ∧ SolvesUpper B.nrows B.ncols L X.e B.e) : SolvedUpper R B.pack L B.e := by
  obtain ⟨X, rfl, h2, h3, h4⟩ := h
  exact ⟨X.e, pack_rep X, ⟨h2.nrows, h2.ncols, h2.fid⟩, h4, h3⟩

variable {A B : Mzed} {MA MB : Nat → Nat → Elem ff} (hA : Rep A MA) (hB : Rep B MB)
  (hd : ∀ i, i < B.nrows → MA i i ≠ 0) (hn : 0 < B.ncols)
include hA hB hd hn

/-- **C29** `mzed_trsm_lower_left_naive`. -/
theorem C29_lower_naive : SolvedLower (mzedTrsmLowerLeftNaive A B) B MA MB := by
  have := toSolvedLower (trsmLowerNaive_pack ⟨A.nrows, A.ncols, A.fid, MA⟩ ⟨B.nrows, B.ncols, B.fid, MB⟩ hn hd)
  rwa [← hA.eq_pack', ← hB.eq_pack'] at this

/-- **C29** `mzed_trsm_upper_left_naive`. -/
theorem C29_upper_naive : SolvedUpper (mzedTrsmUpperLeftNaive A B) B MA MB := by
  have := toSolvedUpper (trsmUpperNaive_pack ⟨A.nrows, A.ncols, A.fid, MA⟩ ⟨B.nrows, B.ncols, B.fid, MB⟩ hn hd)
  rwa [← hA.eq_pack', ← hB.eq_pack'] at this

/-- **C29** `mzed_trsm_lower_left_newton_john`. -/
theorem C29_lower_newton_john {cb : Codebook} (hcb : cb.Ok ff.degree) :
    SolvedLower (mzedTrsmLowerLeftNewtonJohn cb A B) B MA MB := by
  have := toSolvedLower (trsmLowerNj_pack hcb ⟨A.nrows, A.ncols, A.fid, MA⟩ ⟨B.nrows, B.ncols, B.fid, MB⟩ hn hd)
  rwa [← hA.eq_pack', ← hB.eq_pack'] at this

/-- **C29** `mzed_trsm_upper_left_newton_john`. -/
theorem C29_upper_newton_john {cb : Codebook} (hcb : cb.Ok ff.degree) :
    SolvedUpper (mzedTrsmUpperLeftNewtonJohn cb A B) B MA MB := by
  have := toSolvedUpper (trsmUpperNj_pack hcb ⟨A.nrows, A.ncols, A.fid, MA⟩ ⟨B.nrows, B.ncols, B.fid, MB⟩ hn hd)
  rwa [← hA.eq_pack', ← hB.eq_pack'] at this

omit hA hB hd hn in
/-- operands meeting the hypotheses: a 300x300 lower triangle (so that the table method is used over GF(2^8))
and a 300x70 right hand side -/
example : ∃ ff, ∃ _ : IsField ff, ∃ cb : Codebook, cb.Ok ff.degree ∧ ∃ (A B : Mzed) (MA MB : Nat → Nat → Elem ff), Rep A MA ∧ Rep B MB ∧
    (∀ i, i < B.nrows → MA i i ≠ 0) ∧ 0 < B.ncols ∧ ¬ 2 ^ ff.degree ≥ A.nrows ∧ MA 3 1 = 1 ∧ MA 1 3 = 1 := by
  obtain ⟨ff, h, hd⟩ := exists_aes
  refine ⟨ff, h, grayCode, grayCode_ok _, _, _, _, _, pack_rep ⟨300, 300, 0, fun _ _ => 1⟩, pack_rep ⟨300, 70, 0, fun i j => if i = j then 1 else 0⟩,
    fun _ _ => one_ne_zero, by show 0 < 70; norm_num, ?_, rfl, rfl⟩
  rw [hd]
  show ¬ 2 ^ 8 ≥ 300
  norm_num

end M4rie.Props
