import Verif.Proofs.KaraMul
import Verif.Props.Strassen
import Verif.Props.Slice

/-!
# Properties C25, C27, C28: Karatsuba formulas, sliced multiplication, the multiplication dispatch
-/

namespace M4rie.Props
open M4rie M4rie.Spec

/-! ### C27 -/

/-- **C27** without a field: for every degree `2 ≤ d ≤ 16` the Karatsuba routine adds to the matrix `X[t]` (for *every* `t`) the
coefficient of `x^t` of the product of the polynomials `∑ A[a] x^a` and `∑ B[b] x^b` with matrices over GF(2) as coefficients
(`A[a]` is `m × K`, `B[b]` is `K × n`), and changes nothing else. -/
theorem C27_unreduced {d : Nat} (h2 : 2 ≤ d) (h16 : d ≤ 16) (m K n : Nat) (X A B : Nat → Nat → Nat → Word) :
    ∃ X', ptrAddmulKaratsuba? d none m K n X A B = some X' ∧ ∀ t i j, gf2Entry (X' t) i j = gf2Entry (X t) i j +
      if i < m ∧ j < n then ∑ ab ∈ Finset.range d ×ˢ Finset.range d with ab.1 + ab.2 = t,
        ∑ l ∈ Finset.range K, gf2Entry (A ab.1) i l * gf2Entry (B ab.2) l j else 0 := by
  obtain ⟨X', e, hX⟩ := ptrAddmulKaratsuba_spec h2 h16 (ff := none) (fun t _ f hf => by cases hf) m K n X A B
  refine ⟨X', e, fun t i j => ?_⟩
  have h := congrArg gf2Hom (hX t i j)
  rw [map_add] at h
  refine h.trans (congrArg (gf2Entry (X t) i j + ·) ?_)
  by_cases hij : i < m ∧ j < n
  · rw [if_pos hij, decide_eq_true hij, Finset.sum_filter, Finset.sum_product]
    have e1 : ∀ x : Bool, true * x = x := fun x => one_mul x
    rw [e1, map_sum]
    refine Finset.sum_congr rfl fun a _ => ?_
    rw [map_sum]
    refine Finset.sum_congr rfl fun b _ => ?_
    rw [map_mul]
    show gf2Hom (decide (t = a + b)) * _ = if a + b = t then _ else 0
    by_cases hab : a + b = t
    · rw [if_pos hab, decide_eq_true hab.symm]
      rw [show gf2Hom true = 1 from rfl, one_mul, map_sum]
      exact Finset.sum_congr rfl fun l _ => map_mul gf2Hom _ _
    · rw [if_neg hab, decide_eq_false (fun h => hab h.symm), show gf2Hom false = 0 from rfl, zero_mul]
  · rw [if_neg hij, decide_eq_false hij, map_mul, show gf2Hom false = 0 from rfl, zero_mul]

variable {ff : Gf2e} [IsField ff]

/-- `R` is the sliced matrix `C` with its entries replaced by those of the product `A*B` -/
def SHoldsProduct (R C : Slice) (k : Nat) (MC MA MB : Nat → Nat → Elem ff) : Prop :=
  SSameDim R C ∧ SRep R (fun i j => if i < C.nrows ∧ j < C.ncols then ∑ t ∈ Finset.range k, MA i t * MB t j else MC i j)

/-- `R` is `C + A*B` -/
def SHoldsSumProduct (R C : Slice) (k : Nat) (MC MA MB : Nat → Nat → Elem ff) : Prop :=
  SSameDim R C ∧ SRep R (fun i j => if i < C.nrows ∧ j < C.ncols then MC i j + ∑ t ∈ Finset.range k, MA i t * MB t j else MC i j)

/-- the operands of a product fit together -/
structure SFits (C A B : Slice) : Prop where
  inner : A.ncols = B.nrows
  field : A.fid = B.fid
  fieldC : C.fid = A.fid
  rows : C.nrows = A.nrows
  cols : C.ncols = B.ncols

section
variable {A B C : Slice} {MA MB MC : Nat → Nat → Elem ff} (hA : SRep A MA) (hB : SRep B MB) (hC : SRep C MC)
include hA hB hC

/-- **C27** with a field of degree `d`: the routine adds the matrix product over GF(2^d) of the operands stored in the slices. -/
theorem C27_reduced (hr : C.nrows = A.nrows) (hc : C.ncols = B.ncols) :
    ∃ X', ptrAddmulKaratsuba? ff.degree (some ff) A.nrows A.ncols B.ncols C.x A.x B.x = some X' ∧
      SHoldsSumProduct { C with x := X' } C A.ncols MC MA MB := by
  obtain ⟨X', e, hX⟩ := ptrAddmulKaratsuba_spec (IsField.two_le (ff := ff)) (Fact.out : FFOK ff).min.e16 (ff := some ff)
    (fun t ht => targetOk t ht) A.nrows A.ncols B.ncols C.x A.x B.x
  refine ⟨X', e, ⟨rfl, rfl, rfl⟩, ?_⟩
  have hx : AddsProduct ff.degree (some ff) A.nrows A.ncols B.ncols (⟨C.nrows, C.ncols, C.fid, MC⟩ : Mat ff).spack.x
      (⟨A.nrows, A.ncols, A.fid, MA⟩ : Mat ff).spack.x (⟨B.nrows, B.ncols, B.fid, MB⟩ : Mat ff).spack.x X' := by
    rw [← hC.eq_spack', ← hA.eq_spack', ← hB.eq_spack']
    exact hX
  have := addsProduct_spack (⟨C.nrows, C.ncols, C.fid, MC⟩ : Mat ff) ⟨A.nrows, A.ncols, A.fid, MA⟩ ⟨B.nrows, B.ncols, B.fid, MB⟩ hr hc hx
  rw [← hC.eq_spack'] at this
  rw [this]
  exact spack_rep _

/-! ### C28 -/

/-- **C28** the naive and the Karatsuba routine, without checks: `C += A*B`. -/
theorem C28_addmul_unchecked (hr : C.nrows = A.nrows) (hc : C.ncols = B.ncols) :
    (∃ R, mzdSliceAddmulNaive? C A B = some R ∧ SHoldsSumProduct R C A.ncols MC MA MB) ∧
    (∃ R, mzdSliceAddmulKara? C A B = some R ∧ SHoldsSumProduct R C A.ncols MC MA MB) := by
  have h1 := sliceAddmulNaive_spack (⟨C.nrows, C.ncols, C.fid, MC⟩ : Mat ff) ⟨A.nrows, A.ncols, A.fid, MA⟩ ⟨B.nrows, B.ncols, B.fid, MB⟩ hr hc
  have h2 := sliceAddmulKara_spack (⟨C.nrows, C.ncols, C.fid, MC⟩ : Mat ff) ⟨A.nrows, A.ncols, A.fid, MA⟩ ⟨B.nrows, B.ncols, B.fid, MB⟩ hr hc
  rw [← hC.eq_spack', ← hA.eq_spack', ← hB.eq_spack'] at h1 h2
  exact ⟨⟨_, h1, ⟨rfl, rfl, rfl⟩, spack_rep _⟩, ⟨_, h2, ⟨rfl, rfl, rfl⟩, spack_rep _⟩⟩

/-- **C28** `mzd_slice_addmul(C,A,B)` (= `mzd_slice_addmul_karatsuba`) gives `C + A*B`. -/
theorem C28_addmul (h : SFits C A B) :
    ∃ R, mzdSliceAddmulKaratsuba? C A B = some R ∧ SHoldsSumProduct R C A.ncols MC MA MB := by
  obtain ⟨_, R, e, hR⟩ := C28_addmul_unchecked hA hB hC h.rows h.cols
  refine ⟨R, ?_, hR⟩
  unfold mzdSliceAddmulKaratsuba?
  rw [if_neg (by have := h.inner; have := h.field; tauto), if_neg (by have := h.fieldC; have := h.rows; have := h.cols; tauto)]
  exact e

/-- **C28** `mzd_slice_mul(C,A,B)` (= `mzd_slice_mul_karatsuba`) gives `A*B`, whatever `C` contained. -/
theorem C28_mul (h : SFits C A B) :
    ∃ R, mzdSliceMulKaratsuba? C A B = some R ∧ SHoldsProduct R C A.ncols MC MA MB := by
  have h1 := sliceSetUi_spack (⟨C.nrows, C.ncols, C.fid, MC⟩ : Mat ff) 0
  have hz : (0 : Elem ff).1 = 0#64 := rfl
  rw [hz, ← hC.eq_spack'] at h1
  have h2 := sliceAddmulKara_spack ((⟨C.nrows, C.ncols, C.fid, MC⟩ : Mat ff).scalar 0) ⟨A.nrows, A.ncols, A.fid, MA⟩ ⟨B.nrows, B.ncols, B.fid, MB⟩ h.rows h.cols
  rw [← hA.eq_spack', ← hB.eq_spack', ← h1, scalar_addMulM] at h2
  have e : mzdSliceMulKaratsuba? C A B = mzdSliceAddmulKara? (mzdSliceSetUi C 0#64) A B := by
    unfold mzdSliceMulKaratsuba?
    rw [if_neg (by have := h.inner; have := h.field; tauto), if_neg (by have := h.fieldC; have := h.rows; have := h.cols; tauto)]
  exact ⟨_, e.trans h2, ⟨rfl, rfl, rfl⟩, spack_rep _⟩

omit hC
/-- **C28** `mzd_slice_mul(NULL,A,B)` returns a new matrix with the product. -/
theorem C28_mul_new (h : A.ncols = B.nrows) (hf : A.fid = B.fid) :
    ∃ R, mzdSliceMulKaratsubaNew? A B = some R ∧ R.nrows = A.nrows ∧ R.ncols = B.ncols ∧ R.fid = A.fid ∧
      SRep R (fun i j => if i < A.nrows ∧ j < B.ncols then ∑ t ∈ Finset.range A.ncols, MA i t * MB t j else 0) := by
  have h1 := sliceInit_spack (ff := ff) A.fid A.nrows B.ncols
  have h2 := sliceAddmulKara_spack (⟨A.nrows, B.ncols, A.fid, fun _ _ => 0⟩ : Mat ff) ⟨A.nrows, A.ncols, A.fid, MA⟩ ⟨B.nrows, B.ncols, B.fid, MB⟩ rfl rfl
  rw [← h1, ← hA.eq_spack', ← hB.eq_spack'] at h2
  have e : mzdSliceMulKaratsubaNew? A B = mzdSliceAddmulKara? (mzdSliceInit ff A.fid A.nrows B.ncols) A B := by
    unfold mzdSliceMulKaratsubaNew?
    rw [if_neg (by tauto), hA.ffEq]
  refine ⟨_, e.trans h2, rfl, rfl, rfl, Eq.subst (motive := fun f => SRep _ f) ?_ (spack_rep _)⟩
  · funext i j
    show (if i < A.nrows ∧ j < B.ncols then 0 + ∑ t ∈ Finset.range A.ncols, MA i t * MB t j else 0) = _
    rw [zero_add]

end

/-- **C28** operands that do not fit die. -/
theorem C28_dies {A B C : Slice} (h : ¬ SFits C A B) :
    mzdSliceMulKaratsuba? C A B = none ∧ mzdSliceAddmulKaratsuba? C A B = none := by
  unfold mzdSliceMulKaratsuba? mzdSliceAddmulKaratsuba?
  by_cases h1 : A.ncols ≠ B.nrows ∨ A.fid ≠ B.fid
  · rw [if_pos h1, if_pos h1]; exact ⟨rfl, rfl⟩
  · rw [if_neg h1, if_neg h1]
    by_cases h2 : C.fid ≠ A.fid ∨ C.nrows ≠ A.nrows ∨ C.ncols ≠ B.ncols
    · rw [if_pos h2, if_pos h2]; exact ⟨rfl, rfl⟩
    · push Not at h1 h2
      exact absurd ⟨h1.1, h1.2, h2.1, h2.2.1, h2.2.2⟩ h

-- 70x65 times 65x3 over GF(2^8)
example : ∃ ff, ∃ _ : IsField ff, ff.degree = 8 ∧ ∃ (A B C : Slice) (MA MB MC : Nat → Nat → Elem ff), SRep A MA ∧ SRep B MB ∧
    SRep C MC ∧ SFits C A B ∧ A.nrows = 70 ∧ A.ncols = 65 ∧ MA 3 4 = 1 ∧ MC 5 5 = 1 := by
  obtain ⟨ff, h, hd⟩ := exists_aes
  refine ⟨ff, h, hd, Mat.spack (ff := ff) ⟨70, 65, 0, fun _ _ => 1⟩, Mat.spack (ff := ff) ⟨65, 3, 0, fun i j => if i = j then 1 else 0⟩,
    Mat.spack (ff := ff) ⟨70, 3, 0, fun i _ => if i = 5 then 1 else 0⟩, _, _, _, spack_rep _, spack_rep _, spack_rep _, ?_, rfl, rfl, ?_, ?_⟩
  · exact ⟨rfl, rfl, rfl, rfl, rfl⟩
  · simp
  · simp

/-! ### C25 -/

section
variable {env : MulEnv} (henv : env.Ok ff.degree)
    {A B C : Mzed} {MA MB MC : Nat → Nat → Elem ff} (hA : Rep A MA) (hB : Rep B MB) (hC : Rep C MC) (hfit : Fits C A B)
include hA hB hC hfit

/-- **C25** `mzed_mul_karatsuba(C,A,B)` and `mzed_addmul_karatsuba(C,A,B)`, the path taken for large matrices. -/
theorem C25_karatsuba :
    (∃ R, mzedMulKaratsuba? C A B = some R ∧ HoldsProduct R C A.ncols MC MA MB) ∧
    (∃ R, mzedAddmulKaratsuba? C A B = some R ∧ HoldsSumProduct R C A.ncols MC MA MB) := by
  have h1 := addmulKara_pack ((⟨C.nrows, C.ncols, C.fid, MC⟩ : Mat ff).scalar 0) ⟨A.nrows, A.ncols, A.fid, MA⟩ ⟨B.nrows, B.ncols, B.fid, MB⟩ hfit.rows hfit.cols hfit.inner
  have h2 := addmulKara_pack (⟨C.nrows, C.ncols, C.fid, MC⟩ : Mat ff) ⟨A.nrows, A.ncols, A.fid, MA⟩ ⟨B.nrows, B.ncols, B.fid, MB⟩ hfit.rows hfit.cols hfit.inner
  have hs := setUi_pack (⟨C.nrows, C.ncols, C.fid, MC⟩ : Mat ff) 0
  have hz : (0 : Elem ff).1 = 0#64 := rfl
  rw [hz] at hs
  rw [← hs, scalar_addMulM] at h1
  rw [← hC.eq_pack', ← hA.eq_pack', ← hB.eq_pack'] at h1 h2
  have c1 : ¬ (A.ncols ≠ B.nrows ∨ A.fid ≠ B.fid) := by have := hfit.inner; have := hfit.field; tauto
  have c2 : ¬ (C.fid ≠ A.fid ∨ C.nrows ≠ A.nrows ∨ C.ncols ≠ B.ncols) := by
    have := hfit.fieldC; have := hfit.rows; have := hfit.cols; tauto
  constructor
  · have e : mzedMulKaratsuba? C A B = mzedAddmulKara? (mzedSetUi C 0#64) A B := by
      unfold mzedMulKaratsuba?
      rw [if_neg c1, if_neg c2]
    exact ⟨_, e.trans h1, ⟨rfl, rfl, rfl⟩, pack_rep _⟩
  · have e : mzedAddmulKaratsuba? C A B = mzedAddmulKara? C A B := by
      unfold mzedAddmulKaratsuba?
      rw [if_neg c1, if_neg c2]
    exact ⟨_, e.trans h2, ⟨rfl, rfl, rfl⟩, pack_rep _⟩

include henv
/-- **C25** `mzed_mul(C,A,B)` gives `A*B` whichever algorithm is selected (Karatsuba on slices, Strassen-Winograd, Newton-John).
For a `B` without columns see `C25_violation`. -/
theorem C25_mul (hn : 0 < B.ncols) : ∃ R, mzedMul? env C A B = some R ∧ HoldsProduct R C A.ncols MC MA MB := by
  have hr := hfit.rows
  have hc := hfit.cols
  have hi := hfit.inner
  rw [hC.eq_pack', hA.eq_pack', hB.eq_pack'] at hfit
  have h1 := mulInit_pack _ _ _ hfit true
  have h2 := mulRaw_pack henv (⟨C.nrows, C.ncols, C.fid, MC⟩ : Mat ff) ⟨A.nrows, A.ncols, A.fid, MA⟩ ⟨B.nrows, B.ncols, B.fid, MB⟩ hr hc hi hn
  rw [if_pos rfl] at h1
  rw [← hC.eq_pack', ← hA.eq_pack', ← hB.eq_pack'] at h1
  rw [← hA.eq_pack', ← hB.eq_pack'] at h2
  have e : mzedMul? env C A B = mzedMulRaw? env (Mat.scalar (⟨C.nrows, C.ncols, C.fid, MC⟩ : Mat ff) 0).pack A B := by
    unfold mzedMul?
    rw [h1]
    rfl
  exact ⟨_, e.trans h2, ⟨rfl, rfl, rfl⟩, pack_rep _⟩

/-- **C25** `mzed_addmul(C,A,B)` gives `C + A*B` whichever algorithm is selected. -/
theorem C25_addmul (hn : 0 < B.ncols) : ∃ R, mzedAddmul? env C A B = some R ∧ HoldsSumProduct R C A.ncols MC MA MB := by
  have hr := hfit.rows
  have hc := hfit.cols
  have hi := hfit.inner
  rw [hC.eq_pack', hA.eq_pack', hB.eq_pack'] at hfit
  have h1 := mulInit_pack _ _ _ hfit false
  have h2 := addmulRaw_pack henv (⟨C.nrows, C.ncols, C.fid, MC⟩ : Mat ff) ⟨A.nrows, A.ncols, A.fid, MA⟩ ⟨B.nrows, B.ncols, B.fid, MB⟩ hr hc hi hn
  rw [if_neg (by simp)] at h1
  rw [← hC.eq_pack', ← hA.eq_pack', ← hB.eq_pack'] at h1 h2
  have e : mzedAddmul? env C A B = mzedAddmulRaw? env C A B := by
    unfold mzedAddmul?
    rw [h1]
    rfl
  exact ⟨_, e.trans h2, ⟨rfl, rfl, rfl⟩, pack_rep _⟩

end

/-- **C25** operands that do not fit die. -/
theorem C25_dies {env : MulEnv} {A B C : Mzed} (h : ¬ Fits C A B) : mzedMul? env C A B = none ∧ mzedAddmul? env C A B = none ∧
    mzedMulKaratsuba? C A B = none ∧ mzedAddmulKaratsuba? C A B = none := by
  unfold mzedMul? mzedAddmul? mzedMulKaratsuba? mzedAddmulKaratsuba? mzedMulInit?
  by_cases h1 : A.ncols ≠ B.nrows ∨ A.fid ≠ B.fid
  · simp [if_pos h1]
  · simp only [if_neg h1]
    by_cases h2 : C.fid ≠ A.fid ∨ C.nrows ≠ A.nrows ∨ C.ncols ≠ B.ncols
    · simp [if_pos h2]
    · push Not at h1 h2
      exact absurd ⟨h1.1, h1.2, h2.1, h2.2.1, h2.2.2⟩ h

/-- **C25** (negation) a `B` without columns: `mzed_mul` and `mzed_addmul` crash although the operands fit (GF(2^8), 20x20 times
20x0). -/
theorem C25_violation (hd : ff.degree = 8) {env : MulEnv} (henv : env.Ok ff.degree) {A B C : Mzed} {MA MB MC : Nat → Nat → Elem ff}
    (hA : Rep A MA) (hB : Rep B MB) (hC : Rep C MC) (hfit : Fits C A B) (h1 : A.nrows = 20) (h2 : A.ncols = 20) (h3 : B.ncols = 0) :
    mzedMul? env C A B = none ∧ mzedAddmul? env C A B = none := by
  have hw : degreeToW 8 = 8 := rfl
  have q1 : 128 ≤ Nat.sqrt (4 * env.l2) := by
    have := henv.l2
    rw [Nat.le_sqrt]; omega
  have q2 : 64 ≤ Nat.sqrt (4 * env.l2 / 4) := by
    have := henv.l2
    rw [Nat.le_sqrt]; omega
  have hcut : 16 ≤ strassenCutoff env.sq env.l2 8 8 := by
    unfold strassenCutoff
    rw [henv.sq]
    simp only; split_ifs <;> omega
  have hno : strassenOk 8 8 (strassenCutoff env.sq env.l2 8 8 : Int) 21 20 20 0 = false := by
    unfold strassenOk
    rw [if_neg (by omega), if_pos]
    · rfl
    · unfold strassenBase
      have : closer 20 (20 / 2) (strassenCutoff env.sq env.l2 8 8 : Int) = true := by
        unfold closer
        simp only [decide_eq_true_eq]
        omega
      rw [this]; rfl
  have hr := hfit.rows
  have hc := hfit.cols
  have hi := hfit.inner
  rw [hC.eq_pack', hA.eq_pack', hB.eq_pack'] at hfit
  have i1 := mulInit_pack _ _ _ hfit true
  have i2 := mulInit_pack _ _ _ hfit false
  rw [← hC.eq_pack', ← hA.eq_pack', ← hB.eq_pack'] at i1 i2
  have s1 := mulStrassen_pack (mulNj_pack henv.cb henv.bs) (strassenCutoff env.sq env.l2 8 8 : Int) 21 ((⟨C.nrows, C.ncols, C.fid, MC⟩ : Mat ff).scalar 0)
    ⟨A.nrows, A.ncols, A.fid, MA⟩ ⟨B.nrows, B.ncols, B.fid, MB⟩ hr hc hi.symm
  have s2 := addmulStrassen_pack (mulNj_pack henv.cb henv.bs) (strassenCutoff env.sq env.l2 8 8 : Int) 21 (⟨C.nrows, C.ncols, C.fid, MC⟩ : Mat ff)
    ⟨A.nrows, A.ncols, A.fid, MA⟩ ⟨B.nrows, B.ncols, B.fid, MB⟩ hr hc hi.symm
  rw [← hA.eq_pack', ← hB.eq_pack'] at s1 s2
  rw [← hC.eq_pack'] at s2
  simp only [h1, h2, h3, hd, hw, hno] at s1 s2
  rw [if_neg (by simp)] at s1 s2
  have hdep : strassenDepth A B = 21 := by unfold strassenDepth; omega
  unfold mzedMul? mzedAddmul? mzedMulRaw? mzedAddmulRaw?
  have hs : ¬ (A.nrows ≥ 512 ∧ A.ncols ≥ 512 ∧ B.ncols ≥ 512) := by omega
  rw [if_pos rfl] at i1
  rw [if_neg (by simp), ← hC.eq_pack'] at i2
  rw [i1, i2, hA.ffEq, hA.wEq, hd, hw, hdep]
  constructor
  · exact (if_neg hs).trans s1
  · exact (if_neg hs).trans s2

-- 600x512 times 512x520 (Karatsuba path) and 100x3 times 3x1 (Newton-John path) over GF(2^8), with a 1 MB cache
example : ∃ ff, ∃ _ : IsField ff, ff.degree = 8 ∧ ∃ env : MulEnv, env.Ok ff.degree ∧ (∃ (A B C : Mzed) (MA MB MC : Nat → Nat → Elem ff),
    Rep A MA ∧ Rep B MB ∧ Rep C MC ∧ Fits C A B ∧ A.nrows = 600 ∧ A.ncols = 512 ∧ B.ncols = 520 ∧ MA 3 4 = 1 ∧ MC 5 5 = 1) ∧
    (∃ (A B C : Mzed) (MA MB MC : Nat → Nat → Elem ff),
    Rep A MA ∧ Rep B MB ∧ Rep C MC ∧ Fits C A B ∧ A.nrows = 100 ∧ A.ncols = 3 ∧ B.ncols = 1 ∧ MA 3 4 = 1 ∧ MC 5 5 = 1) := by
  obtain ⟨ff, h, hd⟩ := exists_aes
  refine ⟨ff, h, hd, ⟨grayCode, 2048, Nat.sqrt, 1048576⟩, ⟨grayCode_ok _, by norm_num, rfl, by norm_num⟩, ?_, ?_⟩
  · refine ⟨Mat.pack (ff := ff) ⟨600, 512, 0, fun _ _ => 1⟩, Mat.pack (ff := ff) ⟨512, 520, 0, fun i j => if i = j then 1 else 0⟩,
      Mat.pack (ff := ff) ⟨600, 520, 0, fun i _ => if i = 5 then 1 else 0⟩, _, _, _, pack_rep _, pack_rep _, pack_rep _, ?_, ?_, ?_, ?_, ?_, ?_⟩
    · constructor <;> simp only [pack_nrows, pack_ncols, pack_fid]
    all_goals simp [pack_nrows, pack_ncols]
  · refine ⟨Mat.pack (ff := ff) ⟨100, 3, 0, fun _ _ => 1⟩, Mat.pack (ff := ff) ⟨3, 1, 0, fun i j => if i = j then 1 else 0⟩,
      Mat.pack (ff := ff) ⟨100, 1, 0, fun i _ => if i = 5 then 1 else 0⟩, _, _, _, pack_rep _, pack_rep _, pack_rep _, ?_, ?_, ?_, ?_, ?_, ?_⟩
    · constructor <;> simp only [pack_nrows, pack_ncols, pack_fid]
    all_goals simp [pack_nrows, pack_ncols]

end M4rie.Props
