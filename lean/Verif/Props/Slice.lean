import Verif.Proofs.SliceRow
import Verif.Props.NewtonJohn

/-!
# Properties of sliced matrices (C17, C19, C26, C46, C47, C48, C51, C52)

`SRep S M` (Spec/Slice.lean): the sliced matrix `S` stores the field elements `M i j`.
-/

namespace M4rie.Props
open M4rie M4rie.Spec

variable {ff : Gf2e} [IsField ff]

/-! ### C26: conversion -/

/-- **C26** `mzed_slice(S,A)`: `S` receives the elements of `A` (and nothing else of `S` changes). -/
theorem C26_slice {A : Mzed} {S : Slice} {M MS : Nat → Nat → Elem ff} (hA : Rep A M) (hS : SRep S MS)
    (hr : S.nrows = A.nrows) (hc : S.ncols = A.ncols) :
    ∃ S', mzedSlice? S A = some S' ∧ SSameDim S' S ∧ SRep S' (fun i j => if i < A.nrows ∧ j < A.ncols then M i j else MS i j) := by
  have := slice_spack (⟨S.nrows, S.ncols, S.fid, MS⟩ : Mat ff) ⟨A.nrows, A.ncols, A.fid, M⟩ hr hc
  rw [← hA.eq_pack', ← hS.eq_spack'] at this
  exact ⟨_, this, ⟨rfl, rfl, rfl⟩, spack_rep _⟩

/-- **C26** `mzed_cling(A,S)`: `A` receives the elements of `S`. -/
theorem C26_cling {A : Mzed} {S : Slice} {M MS : Nat → Nat → Elem ff} (hA : Rep A M) (hS : SRep S MS)
    (hr : A.nrows = S.nrows) (hc : A.ncols = S.ncols) :
    ∃ A', mzedCling? A S = some A' ∧ SameDim A' A ∧ Rep A' (fun i j => if i < S.nrows ∧ j < S.ncols then MS i j else M i j) := by
  have := cling_pack (⟨A.nrows, A.ncols, A.fid, M⟩ : Mat ff) ⟨S.nrows, S.ncols, S.fid, MS⟩ hr hc
  rw [← hA.eq_pack', ← hS.eq_spack'] at this
  exact ⟨_, this, ⟨rfl, rfl, rfl⟩, pack_rep _⟩

/-- **C26** `mzed_slice(NULL,A)` and `mzed_cling(NULL,S)` create matrices with the same elements (and zero padding). -/
theorem C26_new {A : Mzed} {S : Slice} {M MS : Nat → Nat → Elem ff} (hA : Rep A M) (hS : SRep S MS) :
    (∃ S', mzedSliceNew? A = some S' ∧ S'.nrows = A.nrows ∧ S'.ncols = A.ncols ∧ S'.fid = A.fid ∧
      SRep S' (fun i j => if i < A.nrows ∧ j < A.ncols then M i j else 0)) ∧
    (∃ A', mzedClingNew? S = some A' ∧ A'.nrows = S.nrows ∧ A'.ncols = S.ncols ∧ A'.fid = S.fid ∧
      Rep A' (fun i j => if i < S.nrows ∧ j < S.ncols then MS i j else 0)) := by
  have h1 := sliceNew_spack (⟨A.nrows, A.ncols, A.fid, M⟩ : Mat ff)
  have h2 := clingNew_pack (⟨S.nrows, S.ncols, S.fid, MS⟩ : Mat ff)
  rw [← hA.eq_pack'] at h1
  rw [← hS.eq_spack'] at h2
  exact ⟨⟨_, h1, rfl, rfl, rfl, spack_rep _⟩, ⟨_, h2, rfl, rfl, rfl, pack_rep _⟩⟩

/-- **C26** slicing and clinging again: every element reads the same in all three matrices; if the padding of `A` is zero (as
after `mzed_init`) the result is identical to `A` word by word. -/
theorem C26_round_trip {A : Mzed} {M : Nat → Nat → Elem ff} (hA : Rep A M) :
    ∃ S A', mzedSliceNew? A = some S ∧ mzedClingNew? S = some A' ∧
      (∀ i j, i < A.nrows → j < A.ncols → mzdSliceReadElem S i j = mzedReadElem A i j ∧ mzedReadElem A' i j = mzedReadElem A i j) ∧
      ((∀ i j, ¬ (i < A.nrows ∧ j < A.ncols) → M i j = 0) → A' = A) := by
  have h1 := sliceNew_spack (⟨A.nrows, A.ncols, A.fid, M⟩ : Mat ff)
  have h2 := clingNew_pack ((⟨A.nrows, A.ncols, A.fid, M⟩ : Mat ff).trim)
  rw [← hA.eq_pack'] at h1
  refine ⟨_, _, h1, h2, fun i j hi hj => ?_, fun hz => ?_⟩
  · rw [sliceRead_spack, read_pack, hA.read]
    constructor
    · exact congrArg Subtype.val (if_pos ⟨hi, hj⟩)
    · exact congrArg Subtype.val ((if_pos ⟨hi, hj⟩).trans (if_pos ⟨hi, hj⟩))
  · conv_rhs => rw [hA.eq_pack']
    congr 1
    refine Mat.ext rfl rfl rfl ?_
    funext i j
    show (if i < A.nrows ∧ j < A.ncols then (if i < A.nrows ∧ j < A.ncols then M i j else 0) else 0) = M i j
    by_cases h : i < A.nrows ∧ j < A.ncols
    · rw [if_pos h, if_pos h]
    · rw [if_neg h, hz i j h]

/-- **C26** clinging and slicing again. -/
theorem C26_round_trip_sliced {S : Slice} {M : Nat → Nat → Elem ff} (hS : SRep S M) :
    ∃ A S', mzedClingNew? S = some A ∧ mzedSliceNew? A = some S' ∧
      (∀ i j, i < S.nrows → j < S.ncols → mzedReadElem A i j = mzdSliceReadElem S i j ∧ mzdSliceReadElem S' i j = mzdSliceReadElem S i j) ∧
      ((∀ i j, ¬ (i < S.nrows ∧ j < S.ncols) → M i j = 0) → S' = S) := by
  have h1 := clingNew_pack (⟨S.nrows, S.ncols, S.fid, M⟩ : Mat ff)
  have h2 := sliceNew_spack ((⟨S.nrows, S.ncols, S.fid, M⟩ : Mat ff).trim)
  have h3 : ∀ i j, mzdSliceReadElem S i j = (M i j).1 := by
    intro i j
    have := sliceRead_spack (⟨S.nrows, S.ncols, S.fid, M⟩ : Mat ff) i j
    rwa [← hS.eq_spack'] at this
  rw [← hS.eq_spack'] at h1
  refine ⟨_, _, h1, h2, fun i j hi hj => ?_, fun hz => ?_⟩
  · rw [sliceRead_spack, read_pack, h3]
    constructor
    · exact congrArg Subtype.val (if_pos ⟨hi, hj⟩)
    · exact congrArg Subtype.val ((if_pos ⟨hi, hj⟩).trans (if_pos ⟨hi, hj⟩))
  · conv_rhs => rw [hS.eq_spack']
    congr 1
    refine Mat.ext rfl rfl rfl ?_
    funext i j
    show (if i < S.nrows ∧ j < S.ncols then (if i < S.nrows ∧ j < S.ncols then M i j else 0) else 0) = M i j
    by_cases h : i < S.nrows ∧ j < S.ncols
    · rw [if_pos h, if_pos h]
    · rw [if_neg h, hz i j h]

-- 70 columns (more than one word per slice), over the AES field, zero padding
example : ∃ ff, ∃ _ : IsField ff, ∃ (A : Mzed) (S : Slice) (M MS : Nat → Nat → Elem ff), Rep A M ∧ SRep S MS ∧ S.nrows = A.nrows ∧ S.ncols = A.ncols ∧
    A.ncols = 70 ∧ M 2 69 = 1 ∧ (∀ i j, ¬ (i < A.nrows ∧ j < A.ncols) → M i j = 0) := by
  obtain ⟨ff, h, hd⟩ := exists_aes
  refine ⟨ff, h, Mat.pack (ff := ff) ⟨3, 70, 0, fun i j => if i < 3 ∧ j < 70 then 1 else 0⟩, Mat.spack (ff := ff) ⟨3, 70, 0, fun _ _ => 1⟩, _, _, pack_rep _,
    spack_rep _, rfl, rfl, rfl, rfl, fun i j hij => if_neg hij⟩

/-! ### C47: element access -/

/-- **C47** -/
theorem C47_read {S : Slice} {M : Nat → Nat → Elem ff} (h : SRep S M) (i j : Nat) : mzdSliceReadElem S i j = (M i j).1 := by
  have := sliceRead_spack (⟨S.nrows, S.ncols, S.fid, M⟩ : Mat ff) i j
  rwa [← h.eq_spack'] at this

/-- **C47** -/
theorem C47_write {S : Slice} {M : Nat → Nat → Elem ff} (h : SRep S M) (r c : Nat) (x : Elem ff) :
    SSameDim (mzdSliceWriteElem S r c x.1) S ∧ SRep (mzdSliceWriteElem S r c x.1) (fun i j => if i = r ∧ j = c then x else M i j) := by
  have := sliceWriteElem_spack (⟨S.nrows, S.ncols, S.fid, M⟩ : Mat ff) r c x
  rw [← h.eq_spack'] at this
  rw [this]
  exact ⟨⟨rfl, rfl, rfl⟩, spack_rep _⟩

/-- **C47** -/
theorem C47_add {S : Slice} {M : Nat → Nat → Elem ff} (h : SRep S M) (r c : Nat) (x : Elem ff) :
    SSameDim (mzdSliceAddElem S r c x.1) S ∧ SRep (mzdSliceAddElem S r c x.1) (fun i j => if i = r ∧ j = c then M i j + x else M i j) := by
  have := sliceAddElem_spack (⟨S.nrows, S.ncols, S.fid, M⟩ : Mat ff) r c x
  rw [← h.eq_spack'] at this
  rw [this]
  exact ⟨⟨rfl, rfl, rfl⟩, spack_rep _⟩

/-- **C47** a read after a write or an addition -/
theorem C47_read_write {S : Slice} {M : Nat → Nat → Elem ff} (h : SRep S M) (r c : Nat) (x : Elem ff) (i j : Nat) :
    mzdSliceReadElem (mzdSliceWriteElem S r c x.1) i j = (if i = r ∧ j = c then x.1 else mzdSliceReadElem S i j) ∧
    mzdSliceReadElem (mzdSliceAddElem S r c x.1) i j = (if i = r ∧ j = c then mzdSliceReadElem S i j ^^^ x.1 else mzdSliceReadElem S i j) := by
  rw [C47_read (C47_write h r c x).2, C47_read (C47_add h r c x).2, C47_read h]
  constructor <;> split_ifs <;> rfl

/-- **C47** every sliced matrix whose field is `ff` and whose depth is the degree stores field elements: the hypothesis `SRep`
of these theorems can always be met (slices beyond the depth do not exist in C and are zero in the model). -/
theorem C47_total (S : Slice) (hf : S.ff = ff) (hd : S.depth = ff.degree) (hz : ∀ k, ff.degree ≤ k → S.x k = fun _ _ => 0#64) :
    ∃ M : Nat → Nat → Elem ff, SRep S M := srep_exists S hf hd hz

/-! ### C17, C19: addition, comparison -/

/-- **C17** `mzd_slice_add(C,A,B)` (`C` may be `A` or `B`) -/
theorem C17_slice_add {A B C : Slice} {MA MB MC : Nat → Nat → Elem ff} (hA : SRep A MA) (hB : SRep B MB) (hC : SRep C MC)
    (hd : SSameDim A B) (hd' : SSameDim A C) :
    ∃ R, mzdSliceAdd? C A B = some R ∧ SSameDim R C ∧
      SRep R (fun i j => if i < A.nrows ∧ j < A.ncols then MA i j + MB i j else MC i j) := by
  have := sliceAdd_spack (⟨C.nrows, C.ncols, C.fid, MC⟩ : Mat ff) ⟨A.nrows, A.ncols, A.fid, MA⟩ ⟨B.nrows, B.ncols, B.fid, MB⟩
    hd.fid hd.nrows hd.ncols hd'.fid hd'.nrows hd'.ncols
  rw [← hA.eq_spack', ← hB.eq_spack', ← hC.eq_spack'] at this
  exact ⟨_, this, ⟨rfl, rfl, rfl⟩, spack_rep _⟩

/-- **C17** mismatching dimensions or fields die. -/
theorem C17_slice_add_dies (A B C : Slice) (h : ¬ (SSameDim A B ∧ SSameDim A C)) : mzdSliceAdd? C A B = none := by
  unfold mzdSliceAdd?
  by_cases h1 : A.fid = B.fid ∧ A.nrows = B.nrows ∧ A.ncols = B.ncols
  · rw [if_pos h1, if_neg]
    intro h2
    exact h ⟨⟨h1.2.1, h1.2.2, h1.1⟩, ⟨h2.2.1, h2.2.2, h2.1⟩⟩
  · rw [if_neg h1]

/-- **C19** -/
theorem C19_slice_cmp {A B : Slice} {MA MB : Nat → Nat → Elem ff} (hA : SRep A MA) (hB : SRep B MB) :
    mzdSliceEq A B = true ↔
      A.fid = B.fid ∧ A.nrows = B.nrows ∧ A.ncols = B.ncols ∧ ∀ i j, i < A.nrows → j < A.ncols → MA i j = MB i j := by
  have := sliceEq_spack (⟨A.nrows, A.ncols, A.fid, MA⟩ : Mat ff) ⟨B.nrows, B.ncols, B.fid, MB⟩
  rwa [← hA.eq_spack', ← hB.eq_spack'] at this

/-- **C19** -/
theorem C19_slice_is_zero {A : Slice} {M : Nat → Nat → Elem ff} (hA : SRep A M) :
    mzdSliceIsZero A = true ↔ ∀ i j, i < A.nrows → j < A.ncols → M i j = 0 := by
  have := spack_isZero (⟨A.nrows, A.ncols, A.fid, M⟩ : Mat ff)
  rwa [← hA.eq_spack'] at this

-- two different matrices of equal size
example : ∃ ff, ∃ _ : IsField ff, ∃ (A B C : Slice) (MA MB MC : Nat → Nat → Elem ff), SRep A MA ∧ SRep B MB ∧ SRep C MC ∧ SSameDim A B ∧ SSameDim A C ∧
    A.ncols = 70 ∧ MA 1 65 ≠ MB 1 65 := by
  obtain ⟨ff, h, hd⟩ := exists_aes
  refine ⟨ff, h, Mat.spack (ff := ff) ⟨3, 70, 0, fun _ _ => 1⟩, Mat.spack (ff := ff) ⟨3, 70, 0, fun _ _ => 0⟩, Mat.spack (ff := ff) ⟨3, 70, 0, fun _ _ => 1⟩,
    _, _, _, spack_rep _, spack_rep _, spack_rep _, ⟨rfl, rfl, rfl⟩, ⟨rfl, rfl, rfl⟩, rfl, one_ne_zero⟩

/-! ### C46: scalars -/

/-- **C46** `mzd_slice_addmul_scalar(C,a,B)`: `C + a*B` (`C` and `B` different) -/
theorem C46_addmul_scalar {B C : Slice} {MB MC : Nat → Nat → Elem ff} (hB : SRep B MB) (hC : SRep C MC) (hd : SSameDim C B) (a : Elem ff) :
    ∃ R, mzdSliceAddmulScalar? C a.1 B = some R ∧ SSameDim R C ∧
      SRep R (fun i j => if i < C.nrows ∧ j < C.ncols then MC i j + a * MB i j else MC i j) := by
  have := sliceAddmulScalar_spack (⟨C.nrows, C.ncols, C.fid, MC⟩ : Mat ff) ⟨B.nrows, B.ncols, B.fid, MB⟩ a hd.fid hd.nrows hd.ncols
  rw [← hC.eq_spack', ← hB.eq_spack'] at this
  rw [hd.nrows, hd.ncols]
  exact ⟨_, this, ⟨rfl, rfl, rfl⟩, spack_rep _⟩

/-- **C46** `mzd_slice_mul_scalar(C,a,B)`: `a*B` (`C` and `B` different) -/
theorem C46_mul_scalar {B C : Slice} {MB MC : Nat → Nat → Elem ff} (hB : SRep B MB) (hC : SRep C MC) (hd : SSameDim C B) (a : Elem ff) :
    ∃ R, mzdSliceMulScalar? C a.1 B = some R ∧ SSameDim R C ∧
      SRep R (fun i j => if i < C.nrows ∧ j < C.ncols then a * MB i j else MC i j) := by
  have h0 := sliceSetUi_zero (⟨C.nrows, C.ncols, C.fid, MC⟩ : Mat ff)
  rw [← hC.eq_spack'] at h0
  unfold mzdSliceMulScalar?
  obtain ⟨R, e, h1, h2⟩ := C46_addmul_scalar hB (C := mzdSliceSetUi C 0#64) (by rw [h0]; exact spack_rep _)
    ⟨hd.nrows, hd.ncols, hd.fid⟩ a
  refine ⟨R, e, ⟨h1.nrows, h1.ncols, h1.fid⟩, ?_⟩
  refine Eq.subst (motive := fun f => SRep _ f) ?_ h2
  funext i j
  by_cases hij : i < C.nrows ∧ j < C.ncols
  · refine (if_pos hij).trans ((?_ : _ = _).trans (if_pos hij).symm)
    refine (congrArg (· + a * MB i j) ((if_pos hij).trans ?_)).trans (zero_add _)
    split_ifs <;> rfl
  · exact (if_neg hij).trans ((if_neg hij).trans (if_neg hij).symm)

/-- **C46** `mzd_slice_mul_scalar(NULL,a,B)` -/
theorem C46_mul_scalar_new {B : Slice} {MB : Nat → Nat → Elem ff} (hB : SRep B MB) (a : Elem ff) :
    ∃ R, mzdSliceMulScalarNew? a.1 B = some R ∧ SSameDim R B ∧
      SRep R (fun i j => if i < B.nrows ∧ j < B.ncols then a * MB i j else 0) := by
  unfold mzdSliceMulScalarNew?
  rw [hB.ffEq, sliceInit_spack]
  obtain ⟨R, e, h1, h2⟩ := C46_addmul_scalar hB (C := Mat.spack (ff := ff) ⟨B.nrows, B.ncols, B.fid, fun _ _ => 0⟩) (spack_rep _) ⟨rfl, rfl, rfl⟩ a
  refine ⟨R, e, ⟨h1.nrows, h1.ncols, h1.fid⟩, ?_⟩
  refine Eq.subst (motive := fun f => SRep _ f) ?_ h2
  funext i j
  by_cases hij : i < B.nrows ∧ j < B.ncols
  · exact (if_pos hij).trans ((zero_add _).trans (if_pos hij).symm)
  · exact (if_neg hij).trans (if_neg hij).symm

/-! ### C48: row rescaling -/

/-- **C48** `mzd_slice_rescale_row(A,r,c,x)` works for `r = 0` ... -/
theorem C48_rescale_row_zero {A : Slice} {M : Nat → Nat → Elem ff} (hA : SRep A M) (c : Nat) (hc : c < A.ncols) (x : Elem ff) :
    ∃ R, mzdSliceRescaleRow? A 0 c x.1 = some R ∧ SSameDim R A ∧
      SRep R (fun i j => if i = 0 ∧ c ≤ j ∧ j < A.ncols then x * M i j else M i j) := by
  set X : Mat ff := ⟨A.nrows, A.ncols, A.fid, M⟩ with hX
  have hAX : A = X.spack := hA.eq_spack'
  have key : (mzedClingNew? (X.window 0 0 1 X.ncols).spack).bind (fun Awe => if ¬ 0 < Awe.nrows then none else
      mzedSlice? (X.window 0 0 1 X.ncols).spack (mzedRescaleRow Awe 0 c x.1)) =
      some ((X.window 0 0 1 X.ncols).copyM ((X.window 0 0 1 X.ncols).trim.rescale 0 c x)).spack := by
    rw [clingNew_pack, Option.bind_some]
    refine (if_neg (not_not.2 (by show 0 < 1; norm_num))).trans ?_
    rw [rescale_pack _ 0 c (by exact hc) x]
    exact slice_spack _ _ rfl rfl
  have := onSWindow_spack X 0 0 1 X.ncols rfl (f := fun Aw => (mzedClingNew? Aw).bind fun Awe => if ¬ 0 < Awe.nrows then none else
    mzedSlice? Aw (mzedRescaleRow Awe 0 c x.1)) key
  rw [← hAX] at this
  refine ⟨_, this, ⟨rfl, rfl, rfl⟩, ?_⟩
  refine Eq.subst (motive := fun f => SRep _ f) ?_ (spack_rep _)
  funext i j
  show (if 0 ≤ i ∧ 0 ≤ j then (if i - 0 < 1 - 0 ∧ j - 0 < A.ncols - 0 then (if i - 0 = 0 ∧ c ≤ j - 0 ∧ j - 0 < A.ncols - 0 then
      x * (if i - 0 < 1 - 0 ∧ j - 0 < A.ncols - 0 then M (0 + (i - 0)) (0 + (j - 0)) else 0)
      else (if i - 0 < 1 - 0 ∧ j - 0 < A.ncols - 0 then M (0 + (i - 0)) (0 + (j - 0)) else 0)) else M (0 + (i - 0)) (0 + (j - 0))) else M i j) = _
  rw [if_pos ⟨Nat.zero_le _, Nat.zero_le _⟩]
  simp only [Nat.sub_zero, Nat.zero_add]
  by_cases h1 : i < 1 ∧ j < A.ncols
  · have hi : i = 0 := by omega
    subst hi
    by_cases h2 : c ≤ j
    · simp [h1.2, h2]
    · simp [h1.2, h2]
  · rw [if_neg h1, if_neg (by omega)]

/-- **C48** (negation) ... but accesses row `r` of a matrix with a single row for every `r ≥ 1`. -/
theorem C48_violation {A : Slice} {M : Nat → Nat → Elem ff} (hA : SRep A M) (r c : Nat) (hr : 1 ≤ r) (x : Elem ff) :
    mzdSliceRescaleRow? A r c x.1 = none := by
  set X : Mat ff := ⟨A.nrows, A.ncols, A.fid, M⟩ with hX
  have hAX : A = X.spack := hA.eq_spack'
  rw [hAX]
  unfold mzdSliceRescaleRow? onSWindow
  rw [sliceWindow_spack X r 0 (r + 1) _ rfl]
  show Option.map _ ((mzedClingNew? (X.window r 0 (r + 1) X.spack.ncols).spack).bind _) = none
  rw [clingNew_pack, Option.bind_some, if_pos]
  · rfl
  · show ¬ r < r + 1 - r
    omega

/-- **C48**, exact: the call is defined exactly for row 0, and whatever it returns is `A` with row `r` multiplied
by `x` from column `c` on. -/
theorem C48_exact {A : Slice} {M : Nat → Nat → Elem ff} (hA : SRep A M) (r c : Nat) (hc : c < A.ncols) (x : Elem ff) :
    ((mzdSliceRescaleRow? A r c x.1).isSome ↔ r = 0) ∧
    ∀ R, mzdSliceRescaleRow? A r c x.1 = some R → SSameDim R A ∧
      SRep R (fun i j => if i = r ∧ c ≤ j ∧ j < A.ncols then x * M i j else M i j) := by
  rcases Nat.eq_zero_or_pos r with h0 | h1
  · subst h0
    obtain ⟨R, h1, h2, h3⟩ := C48_rescale_row_zero hA c hc x
    refine ⟨by rw [h1]; simp, fun R' h => ?_⟩
    rw [h1] at h; cases h
    exact ⟨h2, h3⟩
  · have := C48_violation hA r c h1 x
    refine ⟨by rw [this]; simp; omega, fun R' h => ?_⟩
    rw [this] at h; cases h

-- a 3x70 matrix over the AES field
example : ∃ ff, ∃ _ : IsField ff, ∃ (A : Slice) (M : Nat → Nat → Elem ff), SRep A M ∧ 65 < A.ncols ∧ A.nrows = 3 := by
  obtain ⟨ff, h, hd⟩ := exists_aes
  exact ⟨ff, h, _, _, spack_rep (⟨3, 70, 0, fun _ _ => 1⟩ : Mat ff), by show 65 < 70; norm_num, rfl⟩

/-! ### C51: rows and columns -/

/-- **C51** `mzd_slice_row_swap` -/
theorem C51_row_swap {A : Slice} {M : Nat → Nat → Elem ff} (h : SRep A M) (a b : Nat) : SSameDim (mzdSliceRowSwap A a b) A ∧
    SRep (mzdSliceRowSwap A a b) (fun i j => if j < A.ncols then M (Equiv.swap a b i) j else M i j) := by
  have := sliceRowSwap_spack (⟨A.nrows, A.ncols, A.fid, M⟩ : Mat ff) a b
  rw [← h.eq_spack'] at this
  rw [this]
  exact ⟨⟨rfl, rfl, rfl⟩, spack_rep _⟩

/-- **C51** `mzd_slice_col_swap` -/
theorem C51_col_swap {A : Slice} {M : Nat → Nat → Elem ff} (h : SRep A M) (a b : Nat) : SSameDim (mzdSliceColSwap A a b) A ∧
    SRep (mzdSliceColSwap A a b) (fun i j => if i < A.nrows then M i (Equiv.swap a b j) else M i j) := by
  have := sliceColSwap_spack (⟨A.nrows, A.ncols, A.fid, M⟩ : Mat ff) a b
  rw [← h.eq_spack'] at this
  rw [this]
  exact ⟨⟨rfl, rfl, rfl⟩, spack_rep _⟩

/-- **C51** `mzd_slice_col_swap_in_rows` -/
theorem C51_col_swap_in_rows {A : Slice} {M : Nat → Nat → Elem ff} (h : SRep A M) (a b start stop : Nat) :
    SSameDim (mzdSliceColSwapInRows A a b start stop) A ∧
    SRep (mzdSliceColSwapInRows A a b start stop) (fun i j => if start ≤ i ∧ i < stop then M i (Equiv.swap a b j) else M i j) := by
  have := sliceColSwapInRows_spack (⟨A.nrows, A.ncols, A.fid, M⟩ : Mat ff) a b start stop
  rw [← h.eq_spack'] at this
  rw [this]
  exact ⟨⟨rfl, rfl, rfl⟩, spack_rep _⟩

/-- **C51** `mzd_slice_copy_row` -/
theorem C51_copy_row {A B : Slice} {M N : Nat → Nat → Elem ff} (hA : SRep A M) (hB : SRep B N) (r s : Nat) :
    SSameDim (mzdSliceCopyRow B r A s) B ∧ SRep (mzdSliceCopyRow B r A s) (fun i j => if i = r ∧ j < A.ncols then M s j else N i j) := by
  have := sliceCopyRow_spack (⟨B.nrows, B.ncols, B.fid, N⟩ : Mat ff) ⟨A.nrows, A.ncols, A.fid, M⟩ r s
  rw [← hA.eq_spack', ← hB.eq_spack'] at this
  rw [this]
  exact ⟨⟨rfl, rfl, rfl⟩, spack_rep _⟩

/-- **C51** `mzd_slice_row_add` -/
theorem C51_row_add {A : Slice} {M : Nat → Nat → Elem ff} (h : SRep A M) (s d : Nat) : SSameDim (mzdSliceRowAdd A s d) A ∧
    SRep (mzdSliceRowAdd A s d) (fun i j => if i = d ∧ j < A.ncols then M d j + M s j else M i j) := by
  have := sliceRowAdd_spack (⟨A.nrows, A.ncols, A.fid, M⟩ : Mat ff) s d
  rw [← h.eq_spack'] at this
  rw [this]
  exact ⟨⟨rfl, rfl, rfl⟩, spack_rep _⟩

/-! ### C52: whole matrices, blocks and windows -/

/-- **C52** `mzd_slice_set_ui`: the scalar matrix -/
theorem C52_set_ui {A : Slice} {M : Nat → Nat → Elem ff} (h : SRep A M) (x : Elem ff) : SSameDim (mzdSliceSetUi A x.1) A ∧
    SRep (mzdSliceSetUi A x.1) (fun i j => if i < A.nrows ∧ j < A.ncols then (if i = j then x else 0) else M i j) := by
  have := sliceSetUi_spack (⟨A.nrows, A.ncols, A.fid, M⟩ : Mat ff) x
  rw [← h.eq_spack'] at this
  rw [this]
  exact ⟨⟨rfl, rfl, rfl⟩, spack_rep _⟩

/-- **C52** `mzd_slice_copy` -/
theorem C52_copy {A C : Slice} {M N : Nat → Nat → Elem ff} (hA : SRep A M) (hC : SRep C N) :
    SSameDim (mzdSliceCopy C A) C ∧ SRep (mzdSliceCopy C A) (fun i j => if i < A.nrows ∧ j < A.ncols then M i j else N i j) := by
  have := sliceCopy_spack (⟨C.nrows, C.ncols, C.fid, N⟩ : Mat ff) ⟨A.nrows, A.ncols, A.fid, M⟩
  rw [← hA.eq_spack', ← hC.eq_spack'] at this
  rw [this]
  exact ⟨⟨rfl, rfl, rfl⟩, spack_rep _⟩

/-- **C52** `mzd_slice_concat` -/
theorem C52_concat {A B : Slice} {MA MB : Nat → Nat → Elem ff} (hA : SRep A MA) (hB : SRep B MB) :
    (mzdSliceConcat A B).nrows = A.nrows ∧ (mzdSliceConcat A B).ncols = A.ncols + B.ncols ∧
    SRep (mzdSliceConcat A B) (fun i j => if i < A.nrows ∧ j < A.ncols then MA i j
      else if i < A.nrows ∧ j < A.ncols + B.ncols then MB i (j - A.ncols) else 0) := by
  have := sliceConcat_spack (⟨A.nrows, A.ncols, A.fid, MA⟩ : Mat ff) ⟨B.nrows, B.ncols, B.fid, MB⟩
  rw [← hA.eq_spack', ← hB.eq_spack'] at this
  rw [this]
  exact ⟨rfl, rfl, spack_rep _⟩

/-- **C52** `mzd_slice_stack` -/
theorem C52_stack {A B : Slice} {MA MB : Nat → Nat → Elem ff} (hA : SRep A MA) (hB : SRep B MB) :
    (mzdSliceStack A B).nrows = A.nrows + B.nrows ∧ (mzdSliceStack A B).ncols = A.ncols ∧
    SRep (mzdSliceStack A B) (fun i j => if i < A.nrows ∧ j < A.ncols then MA i j
      else if i < A.nrows + B.nrows ∧ j < A.ncols then MB (i - A.nrows) j else 0) := by
  have := sliceStack_spack (⟨A.nrows, A.ncols, A.fid, MA⟩ : Mat ff) ⟨B.nrows, B.ncols, B.fid, MB⟩
  rw [← hA.eq_spack', ← hB.eq_spack'] at this
  rw [this]
  exact ⟨rfl, rfl, spack_rep _⟩

/-- **C52** `mzd_slice_submatrix` -/
theorem C52_submatrix {A : Slice} {M : Nat → Nat → Elem ff} (hA : SRep A M) (lr lc hr hc : Nat) :
    (mzdSliceSubmatrix A lr lc hr hc).nrows = hr - lr ∧ (mzdSliceSubmatrix A lr lc hr hc).ncols = hc - lc ∧
    SRep (mzdSliceSubmatrix A lr lc hr hc) (fun i j => if i < hr - lr ∧ j < hc - lc then M (lr + i) (lc + j) else 0) := by
  have := sliceSubmatrix_spack (⟨A.nrows, A.ncols, A.fid, M⟩ : Mat ff) lr lc hr hc
  rw [← hA.eq_spack'] at this
  rw [this]
  exact ⟨rfl, rfl, spack_rep _⟩

/-- **C52** a window starting at a column divisible by 64 shows the elements of the parent ... -/
theorem C52_window {A : Slice} {M : Nat → Nat → Elem ff} (hA : SRep A M) (lr lc hr hc : Nat) (hlc : lc % 64 = 0) :
    (mzdSliceWindow A lr lc hr hc).nrows = hr - lr ∧ (mzdSliceWindow A lr lc hr hc).ncols = hc - lc ∧
    SRep (mzdSliceWindow A lr lc hr hc) (fun i j => M (lr + i) (lc + j)) := by
  have := sliceWindow_spack (⟨A.nrows, A.ncols, A.fid, M⟩ : Mat ff) lr lc hr hc hlc
  rw [← hA.eq_spack'] at this
  rw [this]
  exact ⟨rfl, rfl, spack_rep _⟩

/-- **C52** ... and code that turns the window contents into `N` turns the parent into `N` shifted by `(lr, lc)`. -/
theorem C52_window_write {A W : Slice} {M N : Nat → Nat → Elem ff} (hA : SRep A M) (lr lc hr hc : Nat) (hlc : lc % 64 = 0)
    {f : Slice → Option Slice} (hf : f (mzdSliceWindow A lr lc hr hc) = some W) (hW : SRep W N) :
    ∃ R, onSWindow A lr lc hr hc f = some R ∧ SSameDim R A ∧ SRep R (fun i j => if lr ≤ i ∧ lc ≤ j then N (i - lr) (j - lc) else M i j) := by
  have := sliceWindowWrite_spack (⟨A.nrows, A.ncols, A.fid, M⟩ : Mat ff) ⟨W.nrows, W.ncols, W.fid, N⟩ lr lc hlc
  rw [← hA.eq_spack', ← hW.eq_spack'] at this
  unfold onSWindow
  rw [hf, Option.map_some]
  refine ⟨_, rfl, ⟨rfl, rfl, rfl⟩, ?_⟩
  rw [this]
  exact spack_rep _

-- a window of a 70x130 matrix starting at column 64
example : ∃ ff, ∃ _ : IsField ff, ∃ (A : Slice) (M : Nat → Nat → Elem ff), SRep A M ∧ A.nrows = 70 ∧ A.ncols = 130 ∧ 64 % 64 = 0 ∧ M 3 65 = 1 := by
  obtain ⟨ff, h, hd⟩ := exists_aes
  exact ⟨ff, h, _, _, spack_rep (⟨70, 130, 0, fun _ _ => 1⟩ : Mat ff), rfl, rfl, rfl, rfl⟩

end M4rie.Props
