import Verif.Proofs.NjMul
import Verif.Model.Strassen
import Mathlib.Data.Matrix.Basic
import Mathlib.Data.Matrix.Mul
import Mathlib.Tactic.NoncommRing

/-! Blocks of matrices: reading (`blk`) and overwriting (`put`) rectangular parts. -/

namespace M4rie
open M4rie.Spec
variable {ff : Gf2e} [IsField ff]

namespace Mat

/-- the `m × n` block at row `a`, column `b` -/
def blk (X : Mat ff) (a b m n : Nat) : Matrix (Fin m) (Fin n) (Elem ff) := Matrix.of fun i j => X.e (a + i) (b + j)

/-- overwrite the block at row `a`, column `b` -/
def put (X : Mat ff) (a b : Nat) {m n : Nat} (M : Matrix (Fin m) (Fin n) (Elem ff)) : Mat ff :=
  { X with e := fun i j => if h : (a ≤ i ∧ i < a + m) ∧ (b ≤ j ∧ j < b + n) then M ⟨i - a, by omega⟩ ⟨j - b, by omega⟩ else X.e i j }

@[simp] theorem put_nrows (X : Mat ff) (a b : Nat) {m n : Nat} (M : Matrix (Fin m) (Fin n) (Elem ff)) : (X.put a b M).nrows = X.nrows := by simp only [put, window]
@[simp] theorem put_ncols (X : Mat ff) (a b : Nat) {m n : Nat} (M : Matrix (Fin m) (Fin n) (Elem ff)) : (X.put a b M).ncols = X.ncols := by simp only [put, window]
@[simp] theorem put_fid (X : Mat ff) (a b : Nat) {m n : Nat} (M : Matrix (Fin m) (Fin n) (Elem ff)) : (X.put a b M).fid = X.fid := by simp only [put, window]
@[simp] theorem window_nrows (X : Mat ff) (a b c d : Nat) : (X.window a b c d).nrows = c - a := by simp only [put, window]
@[simp] theorem window_ncols (X : Mat ff) (a b c d : Nat) : (X.window a b c d).ncols = d - b := by simp only [put, window]
@[simp] theorem window_fid (X : Mat ff) (a b c d : Nat) : (X.window a b c d).fid = X.fid := by simp only [put, window]

theorem put_out (X : Mat ff) {a b : Nat} {m n : Nat} (M : Matrix (Fin m) (Fin n) (Elem ff)) {i j : Nat}
    (h : ¬ ((a ≤ i ∧ i < a + m) ∧ (b ≤ j ∧ j < b + n))) : (X.put a b M).e i j = X.e i j := dif_neg h

theorem put_in (X : Mat ff) {a b : Nat} {m n : Nat} (M : Matrix (Fin m) (Fin n) (Elem ff)) {i j : Nat}
    (h : (a ≤ i ∧ i < a + m) ∧ (b ≤ j ∧ j < b + n)) : (X.put a b M).e i j = M ⟨i - a, by omega⟩ ⟨j - b, by omega⟩ := dif_pos h

theorem blk_window (X : Mat ff) (a b c d p q m n : Nat) : (X.window a b c d).blk p q m n = X.blk (a + p) (b + q) m n := by
  ext i j
  simp [blk, window, Nat.add_assoc]

theorem blk_put_self (X : Mat ff) (a b : Nat) {m n : Nat} (M : Matrix (Fin m) (Fin n) (Elem ff)) : (X.put a b M).blk a b m n = M := by
  ext i j
  simp only [blk, Matrix.of_apply]
  rw [put_in _ _ (by omega)]
  congr 1 <;> simp

theorem blk_put_disj (X : Mat ff) {a b c d : Nat} {m n m' n' : Nat} (M : Matrix (Fin m) (Fin n) (Elem ff))
    (h : a + m ≤ c ∨ c + m' ≤ a ∨ b + n ≤ d ∨ d + n' ≤ b) : (X.put a b M).blk c d m' n' = X.blk c d m' n' := by
  ext i j
  simp only [blk, Matrix.of_apply]
  rw [put_out _ _ (by omega)]

theorem blk_eq {X Y : Mat ff} {a b m n : Nat} (h : X.blk a b m n = Y.blk a b m n) {i j : Nat}
    (hi : a ≤ i ∧ i < a + m) (hj : b ≤ j ∧ j < b + n) : X.e i j = Y.e i j := by
  have := congrFun (congrFun h ⟨i - a, by omega⟩) ⟨j - b, by omega⟩
  simp only [blk, Matrix.of_apply] at this
  rwa [Nat.add_sub_cancel' hi.1, Nat.add_sub_cancel' hj.1] at this

theorem mulM_eq_put (C A B : Mat ff) {m k n : Nat} (h1 : C.nrows = m) (h2 : C.ncols = n) (h3 : A.ncols = k) :
    C.mulM A B = C.put 0 0 (A.blk 0 0 m k * B.blk 0 0 k n) := by
  subst h1 h2 h3
  refine Mat.ext rfl rfl rfl ?_
  funext i j
  by_cases h : i < C.nrows ∧ j < C.ncols
  · rw [put_in _ _ (by omega)]
    simp only [mulM, if_pos h, Matrix.mul_apply, blk, Matrix.of_apply, Finset.sum_range]
    simp
  · rw [put_out _ _ (by omega)]
    exact if_neg h

theorem addMulM_eq_put (C A B : Mat ff) {m k n : Nat} (h1 : C.nrows = m) (h2 : C.ncols = n) (h3 : A.ncols = k) :
    C.addMulM A B = C.put 0 0 (C.blk 0 0 m n + A.blk 0 0 m k * B.blk 0 0 k n) := by
  subst h1 h2 h3
  refine Mat.ext rfl rfl rfl ?_
  funext i j
  by_cases h : i < C.nrows ∧ j < C.ncols
  · rw [put_in _ _ (by omega)]
    simp only [addMulM, if_pos h, Matrix.mul_apply, Matrix.add_apply, blk, Matrix.of_apply, Finset.sum_range]
    simp
  · rw [put_out _ _ (by omega)]
    exact if_neg h

theorem addM_eq_put (C A B : Mat ff) {m n : Nat} (h1 : A.nrows = m) (h2 : A.ncols = n) :
    C.addM A B = C.put 0 0 (A.blk 0 0 m n + B.blk 0 0 m n) := by
  subst h1 h2
  refine Mat.ext rfl rfl rfl ?_
  funext i j
  by_cases h : i < A.nrows ∧ j < A.ncols
  · rw [put_in _ _ (by omega)]
    simp only [addM, if_pos h, Matrix.add_apply, blk, Matrix.of_apply]
    simp
  · rw [put_out _ _ (by omega)]
    exact if_neg h

theorem copyM_eq_put (C A : Mat ff) {m n : Nat} (h1 : A.nrows = m) (h2 : A.ncols = n) :
    C.copyM A = C.put 0 0 (A.blk 0 0 m n) := by
  subst h1 h2
  refine Mat.ext rfl rfl rfl ?_
  funext i j
  by_cases h : i < A.nrows ∧ j < A.ncols
  · rw [put_in _ _ (by omega)]
    simp only [copyM, if_pos h, blk, Matrix.of_apply]
    simp
  · rw [put_out _ _ (by omega)]
    exact if_neg h

theorem scalar_zero_eq_put (C : Mat ff) {m n : Nat} (h1 : C.nrows = m) (h2 : C.ncols = n) :
    C.scalar 0 = C.put 0 0 (0 : Matrix (Fin m) (Fin n) (Elem ff)) := by
  subst h1 h2
  refine Mat.ext rfl rfl rfl ?_
  funext i j
  by_cases h : i < C.nrows ∧ j < C.ncols
  · rw [put_in _ _ (by omega)]
    simp [scalar, if_pos h]
  · rw [put_out _ _ (by omega)]
    exact if_neg h

theorem put_put (C : Mat ff) (a b : Nat) {m n : Nat} (M N : Matrix (Fin m) (Fin n) (Elem ff)) :
    (C.put a b M).put a b N = C.put a b N := by
  refine Mat.ext rfl rfl rfl ?_
  funext i j
  by_cases h : (a ≤ i ∧ i < a + m) ∧ (b ≤ j ∧ j < b + n)
  · rw [put_in _ _ h, put_in _ _ h]
  · rw [put_out _ _ h, put_out _ _ h, put_out _ _ h]

end Mat

theorem addRaw_pack (C X Y : Mat ff) {m n : Nat} (h1 : X.nrows = m) (h2 : X.ncols = n) :
    mzedAddRaw C.pack X.pack Y.pack = (C.put 0 0 (X.blk 0 0 m n + Y.blk 0 0 m n)).pack := by
  subst h1 h2
  rw [← Mat.addM_eq_put C X Y rfl rfl]
  have h := addM_pack (⟨X.nrows, X.ncols, X.fid, C.e⟩ : Mat ff) X ⟨X.nrows, X.ncols, X.fid, Y.e⟩ rfl rfl rfl rfl rfl rfl
  unfold mzedAdd? at h
  rw [if_pos ⟨rfl, rfl, rfl, rfl, rfl, rfl⟩] at h
  have h2 := congrArg Mzed.words (Option.some.inj h)
  simp only at h2
  unfold mzedAddRaw
  have e1 : (Mat.pack (⟨X.nrows, X.ncols, X.fid, C.e⟩ : Mat ff)).words = C.pack.words := rfl
  have e2 : (Mat.pack (⟨X.nrows, X.ncols, X.fid, Y.e⟩ : Mat ff)).words = Y.pack.words := rfl
  rw [e1, e2] at h2
  rw [h2]
  rfl

theorem onWindow_pack {C : Mat ff} {lr lc hr hc : Nat} {f : Mzed → Option Mzed} {m n : Nat} {M : Matrix (Fin m) (Fin n) (Elem ff)}
    (ha : degreeToW ff.degree * lc % 64 = 0)
    (h : f (C.window lr lc hr hc).pack = some ((C.window lr lc hr hc).put 0 0 M).pack) :
    onWindow C.pack lr lc hr hc f = some (C.put lr lc M).pack := by
  unfold onWindow
  rw [window_pack _ _ _ _ _ ha, h, Option.map_some, pack_w]
  refine congrArg some ((windowWrite_pack _ _ _ _ ha).trans ?_)
  congr 1
  refine Mat.ext rfl rfl rfl ?_
  funext i j
  unfold Mat.unwindow
  simp only
  by_cases h : lr ≤ i ∧ lc ≤ j
  · rw [if_pos h]
    by_cases h2 : i < lr + m ∧ j < lc + n
    · rw [Mat.put_in _ _ (by omega), Mat.put_in _ _ (by omega)]
      simp
    · rw [Mat.put_out _ _ (by omega), Mat.put_out _ _ (by omega)]
      simp [Mat.window, Nat.add_sub_cancel' h.1, Nat.add_sub_cancel' h.2]
  · rw [if_neg h, Mat.put_out _ _ (by omega)]

end M4rie
