import Verif.Proofs.StrassenRec
import Verif.Props.NewtonJohn

/-!
# Properties C23, C24, C50: Strassen-Winograd multiplication

The code crashes for cutoffs below `128/w - 1` when a split leaves an operand without columns
(`C23_violation`); the theorems say that every result it does return is right (for *every* cutoff), and that
it returns one whenever `cutoff ≥ 128/w - 1` (at most 63) and `B` has columns.
-/

namespace M4rie.Props
open M4rie M4rie.Spec

variable {ff : Gf2e} [IsField ff]

/-- the operands of a product fit together -/
structure Fits (C A B : Mzed) : Prop where
  inner : A.ncols = B.nrows
  field : A.fid = B.fid
  fieldC : C.fid = A.fid
  rows : C.nrows = A.nrows
  cols : C.ncols = B.ncols

/-- `R` is `C` with its entries replaced by those of the product `A*B` (`m × k` times `k × n`) -/
def HoldsProduct (R C : Mzed) (k : Nat) (MC MA MB : Nat → Nat → Elem ff) : Prop :=
  SameDim R C ∧ Rep R (fun i j => if i < C.nrows ∧ j < C.ncols then ∑ t ∈ Finset.range k, MA i t * MB t j else MC i j)

/-- `R` is `C + A*B` -/
def HoldsSumProduct (R C : Mzed) (k : Nat) (MC MA MB : Nat → Nat → Elem ff) : Prop :=
  SameDim R C ∧ Rep R (fun i j => if i < C.nrows ∧ j < C.ncols then MC i j + ∑ t ∈ Finset.range k, MA i t * MB t j else MC i j)

theorem mulInit_pack (C A B : Mat ff) (h : Fits C.pack A.pack B.pack) (clear : Bool) :
    mzedMulInit? C.pack A.pack B.pack clear = some (if clear then C.scalar 0 else C).pack := by
  have hs := setUi_pack C 0
  have hz : (0 : Elem ff).1 = 0#64 := rfl
  rw [hz] at hs
  unfold mzedMulInit?
  rw [if_neg (by have := h.inner; have := h.field; tauto), if_neg (by have := h.fieldC; have := h.rows; have := h.cols; tauto)]
  cases clear
  · rfl
  · rw [if_pos rfl, hs]; rfl

theorem mulStrassen_eq {cb : Codebook} (hcb : cb.Ok ff.degree) {bs : Nat} (hbs : 16 ≤ bs) (C A B : Mat ff)
    (h : Fits C.pack A.pack B.pack) (cutoff : Int) :
    mzedMulStrassen? cb bs C.pack A.pack B.pack cutoff =
      if strassenOk ff.degree (degreeToW ff.degree) cutoff (A.nrows + B.ncols + 1) A.nrows A.ncols B.ncols then
        some (C.mulM A B).pack else none := by
  unfold mzedMulStrassen?
  rw [mulInit_pack C A B h true, Option.bind_some, if_pos rfl,
    mulStrassen_pack (mulNj_pack hcb hbs) cutoff _ (C.scalar 0) A B h.rows h.cols h.inner.symm]
  have : (C.scalar 0).mulM A B = C.mulM A B := by
    refine Mat.ext rfl rfl rfl ?_
    funext i j
    by_cases hij : i < C.nrows ∧ j < C.ncols
    · exact (if_pos hij).trans (if_pos hij).symm
    · exact (if_neg hij).trans ((if_neg hij).trans (if_neg hij).symm)
  rw [this]
  rfl

theorem addmulStrassen_eq {cb : Codebook} (hcb : cb.Ok ff.degree) {bs : Nat} (hbs : 16 ≤ bs) (C A B : Mat ff)
    (h : Fits C.pack A.pack B.pack) (cutoff : Int) :
    mzedAddmulStrassen? cb bs C.pack A.pack B.pack cutoff =
      if strassenOk ff.degree (degreeToW ff.degree) cutoff (A.nrows + B.ncols + 1) A.nrows A.ncols B.ncols then
        some (C.addMulM A B).pack else none := by
  unfold mzedAddmulStrassen?
  rw [mulInit_pack C A B h false, Option.bind_some, if_neg (by simp),
    addmulStrassen_pack (mulNj_pack hcb hbs) cutoff _ C A B h.rows h.cols h.inner.symm]
  rfl

section
variable {cb : Codebook} (hcb : cb.Ok ff.degree) {bs : Nat} (hbs : 16 ≤ bs)
    {A B C : Mzed} {MA MB MC : Nat → Nat → Elem ff} (hA : Rep A MA) (hB : Rep B MB) (hC : Rep C MC) (hfit : Fits C A B)
include hcb hbs hA hB hC hfit

/-- **C23** for *every* cutoff (also negative), whatever `mzed_mul_strassen(C,A,B,cutoff)` returns is `A*B`, and
with a cutoff of at least `128/w - 1` and a `B` with columns it terminates and returns. -/
theorem C23_mul_strassen (cutoff : Int) :
    (∀ R, mzedMulStrassen? cb bs C A B cutoff = some R → HoldsProduct R C A.ncols MC MA MB) ∧
    (0 < B.ncols → 128 / (B.w : Int) ≤ cutoff + 1 → ∃ R, mzedMulStrassen? cb bs C A B cutoff = some R) := by
  have hw := hB.wEq
  rw [hC.eq_pack', hA.eq_pack', hB.eq_pack'] at hfit
  have hm := mulStrassen_eq hcb hbs _ _ _ hfit cutoff
  rw [← hC.eq_pack', ← hA.eq_pack', ← hB.eq_pack'] at hm
  rw [hm]
  constructor
  · intro R hR
    split_ifs at hR with hok
    cases hR
    exact ⟨⟨rfl, rfl, rfl⟩, pack_rep _⟩
  · intro h1 h2
    rw [hw] at h2
    rw [strassenOk_of_cutoff (by have := IsField.two_le (ff := ff); omega) okW_ff h2 _ _ _ _ h1 (Nat.lt_succ_self _)]
    exact ⟨_, rfl⟩

/-- **C24** the same for `mzed_addmul_strassen(C,A,B,cutoff)` and `C + A*B`. -/
theorem C24_addmul_strassen (cutoff : Int) :
    (∀ R, mzedAddmulStrassen? cb bs C A B cutoff = some R → HoldsSumProduct R C A.ncols MC MA MB) ∧
    (0 < B.ncols → 128 / (B.w : Int) ≤ cutoff + 1 → ∃ R, mzedAddmulStrassen? cb bs C A B cutoff = some R) := by
  have hw := hB.wEq
  rw [hC.eq_pack', hA.eq_pack', hB.eq_pack'] at hfit
  have hm := addmulStrassen_eq hcb hbs _ _ _ hfit cutoff
  rw [← hC.eq_pack', ← hA.eq_pack', ← hB.eq_pack'] at hm
  rw [hm]
  constructor
  · intro R hR
    split_ifs at hR with hok
    cases hR
    exact ⟨⟨rfl, rfl, rfl⟩, pack_rep _⟩
  · intro h1 h2
    rw [hw] at h2
    rw [strassenOk_of_cutoff (by have := IsField.two_le (ff := ff); omega) okW_ff h2 _ _ _ _ h1 (Nat.lt_succ_self _)]
    exact ⟨_, rfl⟩

end

/-- **C23** incompatible operands die. -/
theorem C23_dies {cb : Codebook} {bs : Nat} {A B C : Mzed} (h : ¬ Fits C A B) (cutoff : Int) :
    mzedMulStrassen? cb bs C A B cutoff = none ∧ mzedAddmulStrassen? cb bs C A B cutoff = none := by
  have : ∀ cl, mzedMulInit? C A B cl = none := by
    intro cl
    unfold mzedMulInit?
    by_cases h1 : A.ncols ≠ B.nrows ∨ A.fid ≠ B.fid
    · rw [if_pos h1]
    · rw [if_neg h1]
      by_cases h2 : C.fid ≠ A.fid ∨ C.nrows ≠ A.nrows ∨ C.ncols ≠ B.ncols
      · rw [if_pos h2]
      · push Not at h1 h2
        exact absurd ⟨h1.1, h1.2, h2.1, h2.2.1, h2.2.2⟩ h
  unfold mzedMulStrassen? mzedAddmulStrassen?
  rw [this, this]
  exact ⟨rfl, rfl⟩

/-- **C23** (negation) with a small cutoff the code crashes: GF(2^8), 20x20 times 20x3, cutoff 1. -/
theorem C23_violation (hd : ff.degree = 8) {cb : Codebook} (hcb : cb.Ok ff.degree) {bs : Nat} (hbs : 16 ≤ bs)
    {A B C : Mzed} {MA MB MC : Nat → Nat → Elem ff} (hA : Rep A MA) (hB : Rep B MB) (hC : Rep C MC) (hfit : Fits C A B)
    (h1 : A.nrows = 20) (h2 : A.ncols = 20) (h3 : B.ncols = 3) :
    mzedMulStrassen? cb bs C A B 1 = none ∧ mzedAddmulStrassen? cb bs C A B 1 = none := by
  have hno : strassenOk 8 8 1 24 20 20 3 = false := by decide +kernel
  rw [hC.eq_pack', hA.eq_pack', hB.eq_pack'] at hfit
  have hm := mulStrassen_eq hcb hbs _ _ _ hfit 1
  have ha := addmulStrassen_eq hcb hbs _ _ _ hfit 1
  rw [← hC.eq_pack', ← hA.eq_pack', ← hB.eq_pack'] at hm ha
  rw [hm, ha]
  simp only [h1, h2, h3, hd]
  have hw : degreeToW 8 = 8 := rfl
  rw [hw, hno]
  exact ⟨rfl, rfl⟩

-- 100x100 times 100x70 over GF(2^8), cutoff 20: recursion, remainders in all three directions
example : ∃ ff, ∃ _ : IsField ff, ∃ cb : Codebook, cb.Ok ff.degree ∧ ∃ (A B C : Mzed) (MA MB MC : Nat → Nat → Elem ff), Rep A MA ∧ Rep B MB ∧
    Rep C MC ∧ Fits C A B ∧ 0 < B.ncols ∧ 128 / (B.w : Int) ≤ 20 + 1 ∧ strassenBase 20 A.nrows A.ncols B.ncols = false ∧ MA 3 4 = 1 ∧ MC 5 5 = 1 := by
  obtain ⟨ff, h, hd⟩ := exists_aes
  refine ⟨ff, h, grayCode, grayCode_ok _, Mat.pack (ff := ff) ⟨100, 100, 0, fun _ _ => 1⟩, Mat.pack (ff := ff) ⟨100, 70, 0, fun i j => if i = j then 1 else 0⟩,
    Mat.pack (ff := ff) ⟨100, 70, 0, fun i _ => if i = 5 then 1 else 0⟩, _, _, _, pack_rep _, pack_rep _, pack_rep _, ?_, ?_, ?_, ?_, ?_, ?_⟩
  · constructor <;> simp only [pack_nrows, pack_ncols, pack_fid]
  · rw [pack_ncols]; norm_num
  · rw [pack_w, hd]
    decide
  · simp only [pack_nrows, pack_ncols]
    decide
  · simp
  · simp

-- a case of the violation
example : ∃ ff, ∃ _ : IsField ff, ff.degree = 8 ∧ ∃ cb : Codebook, cb.Ok ff.degree ∧ ∃ (A B C : Mzed) (MA MB MC : Nat → Nat → Elem ff), Rep A MA ∧ Rep B MB ∧
    Rep C MC ∧ Fits C A B ∧ A.nrows = 20 ∧ A.ncols = 20 ∧ B.ncols = 3 := by
  obtain ⟨ff, h, hd⟩ := exists_aes
  refine ⟨ff, h, hd, grayCode, grayCode_ok _, Mat.pack (ff := ff) ⟨20, 20, 0, fun _ _ => 1⟩, Mat.pack (ff := ff) ⟨20, 3, 0, fun i j => if i = j then 1 else 0⟩,
    Mat.pack (ff := ff) ⟨20, 3, 0, fun _ _ => 1⟩, _, _, _, pack_rep _, pack_rep _, pack_rep _, ?_, ?_, ?_, ?_⟩
  · constructor <;> simp only [pack_nrows, pack_ncols, pack_fid]
  all_goals simp only [pack_nrows, pack_ncols]

/-! ### C50: the schedule -/

/-- a routine that multiplies `m × k` by `k × n` matrices into its first argument (and touches nothing else) -/
def Multiplies (mul : Mzed → Mzed → Mzed → Option Mzed) (m k n : Nat) (ff : Gf2e) [IsField ff] : Prop :=
  ∀ (C A B : Mzed) (MC MA MB : Nat → Nat → Elem ff), Rep C MC → Rep A MA → Rep B MB → C.nrows = m → C.ncols = n → A.nrows = m →
    A.ncols = k → B.nrows = k → B.ncols = n → ∃ R, mul C A B = some R ∧ HoldsProduct R C k MC MA MB

/-- a routine that adds the product to its first argument -/
def MultiplyAdds (mul : Mzed → Mzed → Mzed → Option Mzed) (m k n : Nat) (ff : Gf2e) [IsField ff] : Prop :=
  ∀ (C A B : Mzed) (MC MA MB : Nat → Nat → Elem ff), Rep C MC → Rep A MA → Rep B MB → C.nrows = m → C.ncols = n → A.nrows = m →
    A.ncols = k → B.nrows = k → B.ncols = n → ∃ R, mul C A B = some R ∧ HoldsSumProduct R C k MC MA MB

theorem Multiplies.spec {mul : Mzed → Mzed → Mzed → Option Mzed} {m k n : Nat} (h : Multiplies mul m k n ff) : MulSpec mul m k n ff := by
  intro C A B c1 c2 c3 c4 c5 c6
  obtain ⟨R, hR, hd, hr⟩ := h C.pack A.pack B.pack C.e A.e B.e (pack_rep _) (pack_rep _) (pack_rep _) c1 c2 c3 c4 c5 c6
  rw [hR, hr.eq_pack hd, ← Mat.mulM_eq_put _ _ _ c1 c2 c4, ← c4]
  rfl

theorem MultiplyAdds.spec {mul : Mzed → Mzed → Mzed → Option Mzed} {m k n : Nat} (h : MultiplyAdds mul m k n ff) : AddmulSpec mul m k n ff := by
  intro C A B c1 c2 c3 c4 c5 c6
  obtain ⟨R, hR, hd, hr⟩ := h C.pack A.pack B.pack C.e A.e B.e (pack_rep _) (pack_rep _) (pack_rep _) c1 c2 c3 c4 c5 c6
  rw [hR, hr.eq_pack hd, ← Mat.addMulM_eq_put _ _ _ c1 c2 c4, ← c4]
  rfl

/-- **C50** the in-place schedule of the multiplication: whatever routine computes the seven block products, the
`2m × 2n` corner of `C` ends up holding the product of the `2m × 2k` corner of `A` and the `2k × 2n` corner of
`B`, and every other entry of `C` is unchanged. -/
theorem C50_mul_schedule {mul : Mzed → Mzed → Mzed → Option Mzed} {m k n : Nat} (hmul : Multiplies mul m k n ff)
    {A B C : Mzed} {MA MB MC : Nat → Nat → Elem ff} (hA : Rep A MA) (hB : Rep B MB) (hC : Rep C MC)
    (hk : A.w * k % 64 = 0) (hn : A.w * n % 64 = 0) :
    ∃ R, strassenMulStep mul C A B m k n = some R ∧ SameDim R C ∧ Rep R (fun i j => if i < 2 * m ∧ j < 2 * n then
      ∑ t ∈ Finset.range (2 * k), MA i t * MB t j else MC i j) := by
  rw [hA.wEq] at hk hn
  have := strassenMulStep_pack ⟨C.nrows, C.ncols, C.fid, MC⟩ ⟨A.nrows, A.ncols, A.fid, MA⟩ ⟨B.nrows, B.ncols, B.fid, MB⟩ hk hn hmul.spec
  rw [← hC.eq_pack', ← hA.eq_pack', ← hB.eq_pack'] at this
  refine ⟨_, this, ⟨rfl, rfl, rfl⟩, ?_⟩
  refine Eq.subst (motive := fun f => Rep _ f) ?_ (pack_rep _)
  funext i j
  by_cases h : i < 2 * m ∧ j < 2 * n
  · rw [Mat.put_in _ _ (by omega), if_pos h, blk_mul_apply]
    simp
  · rw [Mat.put_out _ _ (by omega), if_neg h]

/-- **C50** the same for the accumulating schedule. -/
theorem C50_addmul_schedule {mul addmul : Mzed → Mzed → Mzed → Option Mzed} {m k n : Nat} (hmul : Multiplies mul m k n ff)
    (haddmul : MultiplyAdds addmul m k n ff)
    {A B C : Mzed} {MA MB MC : Nat → Nat → Elem ff} (hA : Rep A MA) (hB : Rep B MB) (hC : Rep C MC)
    (hk : A.w * k % 64 = 0) (hn : A.w * n % 64 = 0) :
    ∃ R, strassenAddmulStep mul addmul C A B m k n = some R ∧ SameDim R C ∧ Rep R (fun i j => if i < 2 * m ∧ j < 2 * n then
      MC i j + ∑ t ∈ Finset.range (2 * k), MA i t * MB t j else MC i j) := by
  rw [hA.wEq] at hk hn
  have := strassenAddmulStep_pack ⟨C.nrows, C.ncols, C.fid, MC⟩ ⟨A.nrows, A.ncols, A.fid, MA⟩ ⟨B.nrows, B.ncols, B.fid, MB⟩ hk hn hmul.spec haddmul.spec
  rw [← hC.eq_pack', ← hA.eq_pack', ← hB.eq_pack'] at this
  refine ⟨_, this, ⟨rfl, rfl, rfl⟩, ?_⟩
  refine Eq.subst (motive := fun f => Rep _ f) ?_ (pack_rep _)
  funext i j
  by_cases h : i < 2 * m ∧ j < 2 * n
  · rw [Mat.put_in _ _ (by omega), if_pos h, Matrix.add_apply, blk_mul_apply]
    simp [Mat.blk]
  · rw [Mat.put_out _ _ (by omega), if_neg h]

-- the naive routines are such `mul` and `addmul`, for every block size
example {ff : Gf2e} [IsField ff] (m k n : Nat) : MultiplyAdds (fun C A B => some (mzedMulNaiveAcc C A B)) m k n ff ∧
    Multiplies (fun C A B => some (mzedMulNaiveAcc (mzedSetUi C 0#64) A B)) m k n ff := by
  constructor
  · intro C A B MC MA MB hC hA hB c1 c2 c3 c4 c5 c6
    refine ⟨_, rfl, ?_⟩
    have := mulNaiveAcc_pack ⟨C.nrows, C.ncols, C.fid, MC⟩ ⟨A.nrows, A.ncols, A.fid, MA⟩ ⟨B.nrows, B.ncols, B.fid, MB⟩
    rw [← hC.eq_pack', ← hA.eq_pack', ← hB.eq_pack'] at this
    rw [this, ← c4]
    exact ⟨⟨rfl, rfl, rfl⟩, pack_rep _⟩
  · intro C A B MC MA MB hC hA hB c1 c2 c3 c4 c5 c6
    refine ⟨_, rfl, ?_⟩
    have hs := setUi_pack (⟨C.nrows, C.ncols, C.fid, MC⟩ : Mat ff) 0
    have := mulNaiveAcc_pack ((⟨C.nrows, C.ncols, C.fid, MC⟩ : Mat ff).scalar 0) ⟨A.nrows, A.ncols, A.fid, MA⟩ ⟨B.nrows, B.ncols, B.fid, MB⟩
    rw [← hs, ← hC.eq_pack', ← hA.eq_pack', ← hB.eq_pack'] at this
    have hz : (0 : Elem ff).1 = 0#64 := rfl
    rw [hz] at this
    rw [this, ← c4]
    refine ⟨⟨rfl, rfl, rfl⟩, ?_⟩
    refine Eq.subst (motive := fun f => Rep _ f) ?_ (pack_rep _)
    funext i j
    simp only [Mat.addMulM, Mat.scalar]
    by_cases h : i < C.nrows ∧ j < C.ncols
    · simp [h]
    · simp [h]

end M4rie.Props
