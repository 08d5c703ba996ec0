import Verif.Model.Perm
import Verif.Proofs.Ple
import Verif.Proofs.SliceRow

/-! # Permutations, on bits and on entries -/

namespace M4rie
open M4rie.Spec

theorem mzdRowSwap_bit (nc : Nat) (M : Nat → Nat → Word) (a b i p : Nat) :
    bitAt (mzdRowSwap nc M a b) i p = if p < nc then bitAt M (Equiv.swap a b i) p else bitAt M i p := by
  unfold mzdRowSwap
  rw [bitAt_ofBits, Equiv.swap_apply_def]
  split_ifs <;> rfl

theorem mzdColSwapInRows_bit (M : Nat → Nat → Word) (a b start stop i p : Nat) :
    bitAt (mzdColSwapInRows M a b start stop) i p = if start ≤ i ∧ i < stop then bitAt M i (Equiv.swap a b p) else bitAt M i p := by
  unfold mzdColSwapInRows
  rw [bitAt_ofBits, Equiv.swap_apply_def]
  split_ifs <;> rfl

theorem mzdColSwap_bit (nr : Nat) (M : Nat → Nat → Word) (a b i p : Nat) :
    bitAt (mzdColSwap nr M a b) i p = if i < nr then bitAt M i (Equiv.swap a b p) else bitAt M i p := by
  unfold mzdColSwap
  rw [mzdColSwapInRows_bit]
  simp only [Nat.zero_le, true_and]

/-- `t` steps of a walk downwards -/
theorem rowPerm_down (P : Nat → Nat) (n t : Nat) (h : t < n) :
    (rowPerm P n)⁻¹ * rowPerm P (n - t) * Equiv.swap (n - 1 - t) (P (n - 1 - t)) = (rowPerm P n)⁻¹ * rowPerm P (n - (t + 1)) := by
  obtain ⟨m, hm⟩ : ∃ m, n - t = m + 1 := ⟨n - t - 1, by omega⟩
  rw [hm, show n - 1 - t = m by omega, show n - (t + 1) = m by omega]
  show _ * (rowPerm P m * _) * _ = _
  rw [mul_assoc, mul_assoc, Equiv.swap_mul_self, mul_one]

theorem applyPLeft_bit (nr nc : Nat) (M : Nat → Nat → Word) (P : Mzp) (i p : Nat) :
    bitAt (mzdApplyPLeft nr nc M P) i p = if p < nc then bitAt M (rowPerm P.val (min P.length nr) i) p else bitAt M i p := by
  unfold mzdApplyPLeft
  refine forN_inv (fun t (X : Nat → Nat → Word) => ∀ i p, bitAt X i p = if p < nc then bitAt M (rowPerm P.val t i) p else bitAt M i p)
    _ M _ (fun i p => ?_) ?_ i p
  · show _ = if p < nc then bitAt M i p else _
    rw [ite_self]
  · intro t X _ hX i p
    rw [mzdRowSwap_bit, hX, hX]
    split_ifs <;> rfl

theorem applyPLeftTrans_bit (nr nc : Nat) (M : Nat → Nat → Word) (P : Mzp) (i p : Nat) :
    bitAt (mzdApplyPLeftTrans nr nc M P) i p = if p < nc then bitAt M ((rowPerm P.val (min P.length nr))⁻¹ i) p else bitAt M i p := by
  unfold mzdApplyPLeftTrans
  set n := min P.length nr
  have := forN_inv (fun t (X : Nat → Nat → Word) => ∀ i p, bitAt X i p =
      if p < nc then bitAt M (((rowPerm P.val n)⁻¹ * rowPerm P.val (n - t)) i) p else bitAt M i p)
    (fun t M => mzdRowSwap nc M (n - 1 - t) (P.val (n - 1 - t))) M n (fun i p => ?_) ?_
  · refine (this i p).trans ?_
    rw [Nat.sub_self]
    rfl
  · rw [Nat.sub_zero, inv_mul_cancel]
    show _ = if p < nc then bitAt M i p else _
    rw [ite_self]
  · intro t X ht hX i p
    rw [mzdRowSwap_bit, hX, hX, ← rowPerm_down P.val n t ht]
    split_ifs <;> rfl

theorem applyPRightTrans_bit (nr nc : Nat) (M : Nat → Nat → Word) (P : Mzp) (i p : Nat) :
    bitAt (mzdApplyPRightTrans nr nc M P) i p = if i < nr then bitAt M i (rowPerm P.val (min P.length nc) p) else bitAt M i p := by
  unfold mzdApplyPRightTrans
  refine forN_inv (fun t (X : Nat → Nat → Word) => ∀ i p, bitAt X i p = if i < nr then bitAt M i (rowPerm P.val t p) else bitAt M i p)
    _ M _ (fun i p => ?_) ?_ i p
  · show _ = if i < nr then bitAt M i p else _
    rw [ite_self]
  · intro t X _ hX i p
    rw [mzdColSwap_bit, hX, hX]
    split_ifs <;> rfl

theorem applyPRight_bit (nr nc : Nat) (M : Nat → Nat → Word) (P : Mzp) (i p : Nat) :
    bitAt (mzdApplyPRight nr nc M P) i p = if i < nr then bitAt M i ((rowPerm P.val (min P.length nc))⁻¹ p) else bitAt M i p := by
  unfold mzdApplyPRight
  set n := min P.length nc
  have := forN_inv (fun t (X : Nat → Nat → Word) => ∀ i p, bitAt X i p =
      if i < nr then bitAt M i (((rowPerm P.val n)⁻¹ * rowPerm P.val (n - t)) p) else bitAt M i p)
    (fun t M => mzdColSwap nr M (n - 1 - t) (P.val (n - 1 - t))) M n (fun i p => ?_) ?_
  · refine (this i p).trans ?_
    rw [Nat.sub_self]
    rfl
  · rw [Nat.sub_zero, inv_mul_cancel]
    show _ = if i < nr then bitAt M i p else _
    rw [ite_self]
  · intro t X ht hX i p
    rw [mzdColSwap_bit, hX, hX, ← rowPerm_down P.val n t ht]
    split_ifs <;> rfl

/-- the transpositions of `P` from the one with index `i+1` on -/
def permAbove (P : Nat → Nat) (i : Nat) : Nat → Nat := fun c => if i < c then P c else c

theorem applyPRightTransTri_bit (nr nc : Nat) (M : Nat → Nat → Word) (P : Mzp) (i p : Nat) :
    bitAt (mzdApplyPRightTransTri nr nc M P) i p = if i < nr then bitAt M i (rowPerm (permAbove P.val i) nc p) else bitAt M i p := by
  unfold mzdApplyPRightTransTri
  refine forN_inv (fun t (X : Nat → Nat → Word) => ∀ i p, bitAt X i p = if i < nr then bitAt M i (rowPerm (permAbove P.val i) t p) else bitAt M i p)
    _ M _ (fun i p => ?_) ?_ i p
  · show _ = if i < nr then bitAt M i p else _
    rw [ite_self]
  · intro t X _ hX i p
    rw [mzdColSwapInRows_bit, hX, hX]
    show _ = if i < nr then bitAt M i (rowPerm (permAbove P.val i) t (Equiv.swap t (permAbove P.val i t) p)) else bitAt M i p
    unfold permAbove
    by_cases h1 : i < nr
    · simp only [if_pos h1]
      by_cases h2 : i < t
      · rw [if_pos (by omega), if_pos h2]
      · rw [if_neg (by omega), if_neg h2, Equiv.swap_self]; rfl
    · rw [if_neg (by omega), if_neg h1, if_neg h1]

/-! ### on entries -/

variable {ff : Gf2e} [IsField ff]

/-- row `i` of the result is row `ρ i` -/
def Mat.rowsBy (X : Mat ff) (ρ : Equiv.Perm Nat) : Mat ff := { X with e := fun i j => if j < X.ncols then X.e (ρ i) j else X.e i j }
/-- column `j` of the result is column `ρ j` -/
def Mat.colsBy (X : Mat ff) (ρ : Equiv.Perm Nat) : Mat ff := { X with e := fun i j => if i < X.nrows then X.e i (ρ j) else X.e i j }
/-- in row `i` -/
def Mat.colsByRow (X : Mat ff) (ρ : Nat → Equiv.Perm Nat) : Mat ff := { X with e := fun i j => if i < X.nrows then X.e i (ρ i j) else X.e i j }

theorem sliceApplyPLeft_spack (A : Mat ff) (P : Mzp) :
    mzdSliceApplyPLeft A.spack P = (A.rowsBy (rowPerm P.val (min P.length A.nrows))).spack := by
  unfold mzdSliceApplyPLeft
  refine spack_op A (A.rowsBy (rowPerm P.val (min P.length A.nrows))) rfl rfl rfl (fun k => mzdApplyPLeft A.nrows A.ncols (A.spack.x k) P) fun k hk i j => ?_
  rw [applyPLeft_bit, spack_bit, spack_bit, Mat.rowsBy]
  show _ = ebit k (if j < A.ncols then _ else _)
  split_ifs <;> rfl

theorem sliceApplyPLeftTrans_spack (A : Mat ff) (P : Mzp) :
    mzdSliceApplyPLeftTrans A.spack P = (A.rowsBy (rowPerm P.val (min P.length A.nrows))⁻¹).spack := by
  unfold mzdSliceApplyPLeftTrans
  refine spack_op A (A.rowsBy (rowPerm P.val (min P.length A.nrows))⁻¹) rfl rfl rfl (fun k => mzdApplyPLeftTrans A.nrows A.ncols (A.spack.x k) P) fun k hk i j => ?_
  rw [applyPLeftTrans_bit, spack_bit, spack_bit, Mat.rowsBy]
  show _ = ebit k (if j < A.ncols then _ else _)
  split_ifs <;> rfl

theorem sliceApplyPRight_spack (A : Mat ff) (P : Mzp) :
    mzdSliceApplyPRight A.spack P = (A.colsBy (rowPerm P.val (min P.length A.ncols))⁻¹).spack := by
  unfold mzdSliceApplyPRight
  refine spack_op A (A.colsBy (rowPerm P.val (min P.length A.ncols))⁻¹) rfl rfl rfl (fun k => mzdApplyPRight A.nrows A.ncols (A.spack.x k) P) fun k hk i j => ?_
  rw [applyPRight_bit, spack_bit, spack_bit, Mat.colsBy]
  show _ = ebit k (if i < A.nrows then _ else _)
  split_ifs <;> rfl

theorem sliceApplyPRightTrans_spack (A : Mat ff) (P : Mzp) :
    mzdSliceApplyPRightTrans A.spack P = (A.colsBy (rowPerm P.val (min P.length A.ncols))).spack := by
  unfold mzdSliceApplyPRightTrans
  refine spack_op A (A.colsBy (rowPerm P.val (min P.length A.ncols))) rfl rfl rfl (fun k => mzdApplyPRightTrans A.nrows A.ncols (A.spack.x k) P) fun k hk i j => ?_
  rw [applyPRightTrans_bit, spack_bit, spack_bit, Mat.colsBy]
  show _ = ebit k (if i < A.nrows then _ else _)
  split_ifs <;> rfl

theorem sliceApplyPRightTransTri_spack (A : Mat ff) (P : Mzp) :
    mzdSliceApplyPRightTransTri A.spack P = (A.colsByRow fun i => rowPerm (permAbove P.val i) A.ncols).spack := by
  unfold mzdSliceApplyPRightTransTri
  refine spack_op A (A.colsByRow fun i => rowPerm (permAbove P.val i) A.ncols) rfl rfl rfl (fun k => mzdApplyPRightTransTri A.nrows A.ncols (A.spack.x k) P) fun k hk i j => ?_
  rw [applyPRightTransTri_bit, spack_bit, spack_bit, Mat.colsByRow]
  show _ = ebit k (if i < A.nrows then _ else _)
  split_ifs <;> rfl

/-- a packed matrix is determined by its bits -/
theorem pack_of_bits (A R : Mat ff) (hf : R.fid = A.fid) (hr : R.nrows = A.nrows) (hc : R.ncols = A.ncols) (W : Nat → Nat → Word)
    (h : ∀ i p, bitAt W i p = bitAt R.pack.words i p) : { A.pack with words := W } = R.pack := by
  have e : W = R.pack.words := by
    funext i b
    refine BitVec.eq_of_getLsbD_eq fun k hk => ?_
    have := h i (64 * b + k)
    unfold bitAt at this
    rwa [show (64 * b + k) / 64 = b by omega, show (64 * b + k) % 64 = k by omega] at this
  rw [e]
  unfold Mat.pack
  rw [hf, hr, hc]

theorem packBitCols (A : Mat ff) : A.pack.bitCols = degreeToW ff.degree * A.ncols := rfl

theorem div_lt_bitCols (A : Mat ff) (p : Nat) : p < A.pack.bitCols ↔ p / degreeToW ff.degree < A.ncols := by
  rw [packBitCols, Nat.mul_comm, Nat.div_lt_iff_lt_mul (okW_ff (ff := ff)).pos]

theorem applyPLeft_pack (A : Mat ff) (P : Mzp) :
    mzedApplyPLeft A.pack P = (A.rowsBy (rowPerm P.val (min P.length A.nrows))).pack := by
  unfold mzedApplyPLeft
  refine pack_of_bits A (A.rowsBy (rowPerm P.val (min P.length A.nrows))) rfl rfl rfl _ fun i p => ?_
  rw [applyPLeft_bit, pack_bit, pack_bit, pack_bit, Mat.rowsBy]
  by_cases hp : p < A.pack.bitCols
  · simp only [if_pos hp, if_pos ((div_lt_bitCols A p).1 hp), pack_nrows]
  · simp only [if_neg hp, if_neg (fun h => hp ((div_lt_bitCols A p).2 h))]

theorem applyPLeftTrans_pack (A : Mat ff) (P : Mzp) :
    mzedApplyPLeftTrans A.pack P = (A.rowsBy (rowPerm P.val (min P.length A.nrows))⁻¹).pack := by
  unfold mzedApplyPLeftTrans
  refine pack_of_bits A (A.rowsBy (rowPerm P.val (min P.length A.nrows))⁻¹) rfl rfl rfl _ fun i p => ?_
  rw [applyPLeftTrans_bit, pack_bit, pack_bit, pack_bit, Mat.rowsBy]
  by_cases hp : p < A.pack.bitCols
  · simp only [if_pos hp, if_pos ((div_lt_bitCols A p).1 hp), pack_nrows]
  · simp only [if_neg hp, if_neg (fun h => hp ((div_lt_bitCols A p).2 h))]

theorem Mat.colsBy_zero (A : Mat ff) (h : A.nrows = 0) (ρ : Equiv.Perm Nat) : A.colsBy ρ = A :=
  Mat.ext rfl rfl rfl (by funext i j; exact if_neg (by omega))

theorem applyPRightTrans_pack (A : Mat ff) (P : Mzp) :
    mzedApplyPRightTrans A.pack P = (A.colsBy (rowPerm P.val (min P.length A.ncols))).pack := by
  unfold mzedApplyPRightTrans
  by_cases h0 : A.nrows = 0
  · rw [A.colsBy_zero h0]; exact if_pos h0
  refine (if_neg h0).trans ?_
  refine forN_inv (fun t (X : Mzed) => X = (A.colsBy (rowPerm P.val t)).pack) _ A.pack _ ?_ ?_
  · congr 1
    exact Mat.ext rfl rfl rfl (by funext i j; exact (ite_self _).symm)
  · rintro t X _ rfl
    rw [swapCols_pack]
    congr 1
    refine Mat.ext rfl rfl rfl ?_
    funext i j
    simp only [Mat.colsBy, Mat.swapCols]
    split_ifs <;> rfl

theorem applyPRight_pack (A : Mat ff) (P : Mzp) :
    mzedApplyPRight A.pack P = (A.colsBy (rowPerm P.val (min P.length A.ncols))⁻¹).pack := by
  unfold mzedApplyPRight
  by_cases h0 : A.nrows = 0
  · rw [A.colsBy_zero h0]; exact if_pos h0
  refine (if_neg h0).trans ?_
  show forN _ (min P.length A.ncols) _ = _
  simp only [pack_ncols]
  set n := min P.length A.ncols
  have := forN_inv (fun t (X : Mzed) => X = (A.colsBy ((rowPerm P.val n)⁻¹ * rowPerm P.val (n - t))).pack)
    (fun t A => mzedColSwap A (n - 1 - t) (P.val (n - 1 - t))) A.pack n ?_ ?_
  · rw [this, Nat.sub_self]; rfl
  · rw [Nat.sub_zero, inv_mul_cancel]
    congr 1
    exact Mat.ext rfl rfl rfl (by funext i j; exact (ite_self _).symm)
  · rintro t X ht rfl
    rw [swapCols_pack, ← rowPerm_down P.val n t ht]
    congr 1
    refine Mat.ext rfl rfl rfl ?_
    funext i j
    simp only [Mat.colsBy, Mat.swapCols]
    split_ifs <;> rfl

theorem Mat.rowsBy_rowsBy (A : Mat ff) (ρ σ : Equiv.Perm Nat) : (A.rowsBy ρ).rowsBy σ = A.rowsBy (ρ * σ) := by
  refine Mat.ext rfl rfl rfl ?_
  funext i j
  simp only [Mat.rowsBy]
  split_ifs <;> rfl

theorem Mat.colsBy_colsBy (A : Mat ff) (ρ σ : Equiv.Perm Nat) : (A.colsBy ρ).colsBy σ = A.colsBy (ρ * σ) := by
  refine Mat.ext rfl rfl rfl ?_
  funext i j
  simp only [Mat.colsBy]
  split_ifs <;> rfl

theorem Mat.rowsBy_id (A : Mat ff) : A.rowsBy 1 = A := Mat.ext rfl rfl rfl (by funext i j; exact ite_self _)
theorem Mat.colsBy_id (A : Mat ff) : A.colsBy 1 = A := Mat.ext rfl rfl rfl (by funext i j; exact ite_self _)

end M4rie
