import Verif.Proofs.Cost
import Verif.Props.Kara
import Verif.Props.Strassen

/-!
# C75: what a multiplication costs

`Logs x o l` (Spec/Cost): `x` computes what `o` computes and its log grows by exactly `l`.  The versions with a log (Model/Cost) are statement by
statement the ones of the other models.
-/

namespace M4rie.Props
open M4rie M4rie.Spec

variable {ff : Gf2e} [IsField ff]

/-! ### Sliced matrices -/

section
variable {A B C : Slice} {MA MB MC : Nat → Nat → Elem ff} (hA : SRep A MA) (hB : SRep B MB) (hC : SRep C MC) (h : SFits C A B)
include hA hB hC h

/-- **C75** `mzd_slice_mul(C,A,B)` over GF(2^e) returns the product after exactly the documented number of products over GF(2) (3, 6, 9, 13, .., 64 for
e = 2, .., 16), each of an `m × k` by a `k × n` matrix, whatever the entries are. -/
theorem C75_slice_mul : ∃ R, mzdSliceMulKaratsubaL C A B [] = some (R, List.replicate (documentedProducts ff.degree) (.gf2 A.nrows A.ncols B.ncols)) ∧
    SHoldsProduct R C A.ncols MC MA MB := by
  obtain ⟨R, e, hR⟩ := C28_mul hA hB hC h
  refine ⟨R, ?_, hR⟩
  have h2 := IsField.two_le (ff := ff)
  have h16 := (Fact.out : FFOK ff).min.e16
  have hl := sliceKara_logs (mzdSliceSetUi C 0#64) A B (by rw [hA.ffEq]; exact h2) (by rw [hA.ffEq]; exact h16) []
  unfold mzdSliceMulKaratsuba? at e
  unfold mzdSliceMulKaratsubaL
  rw [if_neg (by have := h.inner; have := h.field; tauto), if_neg (by have := h.fieldC; have := h.rows; have := h.cols; tauto)] at e ⊢
  rw [hl, e, hA.ffEq]
  rfl

/-- **C75** the same for `mzd_slice_addmul(C,A,B)`. -/
theorem C75_slice_addmul : ∃ R, mzdSliceAddmulKaratsubaL C A B [] = some (R, List.replicate (documentedProducts ff.degree) (.gf2 A.nrows A.ncols B.ncols)) ∧
    SHoldsSumProduct R C A.ncols MC MA MB := by
  obtain ⟨R, e, hR⟩ := C28_addmul hA hB hC h
  refine ⟨R, ?_, hR⟩
  have h2 := IsField.two_le (ff := ff)
  have h16 := (Fact.out : FFOK ff).min.e16
  have hl := sliceKara_logs C A B (by rw [hA.ffEq]; exact h2) (by rw [hA.ffEq]; exact h16) []
  unfold mzdSliceAddmulKaratsuba? at e
  unfold mzdSliceAddmulKaratsubaL
  rw [if_neg (by have := h.inner; have := h.field; tauto), if_neg (by have := h.fieldC; have := h.rows; have := h.cols; tauto)] at e ⊢
  rw [hl, e, hA.ffEq]
  rfl

/-- **C75** the naive method `_mzd_slice_addmul_naive(C,A,B)` takes `e^2` of them, so Karatsuba's formulas always save some. -/
theorem C75_slice_naive : ∃ R, mzdSliceAddmulNaiveL C A B [] = some (R, List.replicate (ff.degree ^ 2) (.gf2 A.nrows A.ncols B.ncols)) ∧
    SHoldsSumProduct R C A.ncols MC MA MB ∧ documentedProducts ff.degree < ff.degree ^ 2 := by
  obtain ⟨⟨R, e, hR⟩, -⟩ := C28_addmul_unchecked hA hB hC h.rows h.cols
  refine ⟨R, ?_, hR, ?_⟩
  · rw [sliceNaive_logs C A B [], e, hA.ffEq, pow_two]
    rfl
  · have h2 := IsField.two_le (ff := ff)
    have h16 := (Fact.out : FFOK ff).min.e16
    generalize ff.degree = d at *
    interval_cases d <;> decide

end

/-! ### Packed matrices -/

section
variable {cb : Codebook} (hcb : cb.Ok ff.degree) {bs : Nat} (hbs : 16 ≤ bs)
    {A B C : Mzed} {MA MB MC : Nat → Nat → Elem ff} (hA : Rep A MA) (hB : Rep B MB) (hC : Rep C MC) (hfit : Fits C A B)

omit [IsField ff] in
theorem mulInit_dims {C A B R : Mzed} {cl : Bool} (h : mzedMulInit? C A B cl = some R) : R.nrows = A.nrows ∧ R.ncols = B.ncols := by
  unfold mzedMulInit? at h
  by_cases h1 : A.ncols ≠ B.nrows ∨ A.fid ≠ B.fid
  · rw [if_pos h1] at h; cases h
  rw [if_neg h1] at h
  by_cases h2 : C.fid ≠ A.fid ∨ C.nrows ≠ A.nrows ∨ C.ncols ≠ B.ncols
  · rw [if_pos h2] at h; cases h
  rw [if_neg h2] at h
  push Not at h2
  cases cl <;> cases h <;> exact ⟨h2.2.1, h2.2.2⟩

omit [IsField ff] in
theorem mulStrassenTop_logs (hA : Rep A MA) (cutoff : Int) :
    Logs (mzedMulStrassenL cb bs C A B cutoff) (mzedMulStrassen? cb bs C A B cutoff)
      (strassenLog (degreeToW ff.degree) cutoff (strassenDepth A B) A.nrows A.ncols B.ncols) ∧
    Logs (mzedAddmulStrassenL cb bs C A B cutoff) (mzedAddmulStrassen? cb bs C A B cutoff)
      (strassenLog (degreeToW ff.degree) cutoff (strassenDepth A B) A.nrows A.ncols B.ncols) := by
  constructor
  · refine Logs.congr (logs_bind (logs_quietly _) fun D hD => ?_) (List.nil_append _)
    obtain ⟨d1, d2⟩ := mulInit_dims hD
    exact mulStrassen_logs _ cutoff ff _ _ _ _ D A B hA.wEq hA.ffEq d1 d2 rfl rfl rfl
  · refine Logs.congr (logs_bind (logs_quietly _) fun D hD => ?_) (List.nil_append _)
    obtain ⟨d1, d2⟩ := mulInit_dims hD
    exact addmulStrassen_logs _ cutoff ff _ _ _ _ D A B hA.wEq hA.ffEq d1 d2 rfl rfl rfl

include hcb hbs hA hB hC hfit

/-- **C75** `mzed_mul_strassen(C,A,B,cutoff)` and `mzed_addmul_strassen(C,A,B,cutoff)`, for every cutoff they return for: the products they are
reduced to are together never larger than the product itself (`m k n` products of entries, the schoolbook method). -/
theorem C75_strassen_at_most (cutoff : Int) :
    (∀ R l, mzedMulStrassenL cb bs C A B cutoff [] = some (R, l) →
      HoldsProduct R C A.ncols MC MA MB ∧ totalSize l ≤ A.nrows * A.ncols * B.ncols) ∧
    (∀ R l, mzedAddmulStrassenL cb bs C A B cutoff [] = some (R, l) →
      HoldsSumProduct R C A.ncols MC MA MB ∧ totalSize l ≤ A.nrows * A.ncols * B.ncols) := by
  obtain ⟨h1, h2⟩ := mulStrassenTop_logs (cb := cb) (bs := bs) (C := C) (B := B) hA cutoff
  constructor
  · intro R l h
    rw [h1 []] at h
    obtain ⟨R', hR, e⟩ := Option.map_eq_some_iff.1 h
    cases e
    exact ⟨(C23_mul_strassen hcb hbs hA hB hC hfit cutoff).1 _ hR, strassenLog_size _ _ _ _ _ _⟩
  · intro R l h
    rw [h2 []] at h
    obtain ⟨R', hR, e⟩ := Option.map_eq_some_iff.1 h
    cases e
    exact ⟨(C24_addmul_strassen hcb hbs hA hB hC hfit cutoff).1 _ hR, strassenLog_size _ _ _ _ _ _⟩

/-- **C75** for square matrices of `2^j b` rows and cutoff `b` (`b` filling whole words, at least two of them), both make exactly `7^j` Newton-John products of
`b × b` matrices and no other - instead of `8^j` for the schoolbook method. -/
theorem C75_strassen_exact {j b : Nat} (hb : 0 < b) (hd : 64 / A.w ∣ b) (hb2 : 128 / A.w ≤ b + 1) (h1 : A.nrows = 2 ^ j * b) (h2 : A.ncols = 2 ^ j * b)
    (h3 : B.ncols = 2 ^ j * b) :
    (∃ R, mzedMulStrassenL cb bs C A B b [] = some (R, List.replicate (7 ^ j) (.newtonJohn b b b)) ∧ HoldsProduct R C A.ncols MC MA MB) ∧
    (∃ R, mzedAddmulStrassenL cb bs C A B b [] = some (R, List.replicate (7 ^ j) (.newtonJohn b b b)) ∧ HoldsSumProduct R C A.ncols MC MA MB) := by
  obtain ⟨l1, l2⟩ := mulStrassenTop_logs (cb := cb) (bs := bs) (C := C) (B := B) hA (b : Int)
  have hw : A.w = degreeToW ff.degree := hA.wEq
  have hwB : B.w = A.w := hB.wEq.trans hw.symm
  have hj : j < strassenDepth A B := by
    unfold strassenDepth
    have : j < 2 ^ j := Nat.lt_two_pow_self
    have : 2 ^ j ≤ 2 ^ j * b := Nat.le_mul_of_pos_right _ hb
    omega
  have hn : 0 < B.ncols := by rw [h3]; positivity
  have hc : 128 / (B.w : Int) ≤ (b : Int) + 1 := by rw [hwB]; exact_mod_cast hb2
  have hlog : strassenLog (degreeToW ff.degree) (b : Int) (strassenDepth A B) A.nrows A.ncols B.ncols = List.replicate (7 ^ j) (.newtonJohn b b b) := by
    rw [h1, h2, h3]
    exact strassenLog_pow hb (hw ▸ hd) j _ hj
  rw [hlog] at l1 l2
  obtain ⟨R1, e1⟩ := (C23_mul_strassen hcb hbs hA hB hC hfit b).2 hn hc
  obtain ⟨R2, e2⟩ := (C24_addmul_strassen hcb hbs hA hB hC hfit b).2 hn hc
  exact ⟨⟨R1, by rw [l1, e1]; rfl, (C23_mul_strassen hcb hbs hA hB hC hfit b).1 _ e1⟩,
    ⟨R2, by rw [l2, e2]; rfl, (C24_addmul_strassen hcb hbs hA hB hC hfit b).1 _ e2⟩⟩

end

/-! ### The dispatch of `mzed_mul` and `mzed_addmul` -/

theorem addmulKaraL_logs {A B : Mzed} {MA MB : Nat → Nat → Elem ff} (hA : Rep A MA) (hB : Rep B MB) (C : Mzed) :
    Logs (mzedAddmulKaraL C A B) (mzedAddmulKara? C A B) (List.replicate (documentedProducts ff.degree) (.gf2 A.nrows A.ncols B.ncols)) := by
  have h2 := IsField.two_le (ff := ff)
  have h16 := (Fact.out : FFOK ff).min.e16
  have eA := sliceNew_spack (⟨A.nrows, A.ncols, A.fid, MA⟩ : Mat ff)
  have eB := sliceNew_spack (⟨B.nrows, B.ncols, B.fid, MB⟩ : Mat ff)
  rw [← hA.eq_pack'] at eA
  rw [← hB.eq_pack'] at eB
  refine Logs.congr (logs_bind (logs_quietly _) fun Cs _ => logs_bind (logs_quietly _) fun As hAs => logs_bind (logs_quietly _) fun Bs hBs => ?_)
    (by rw [List.nil_append, List.nil_append, List.nil_append])
  rw [eA] at hAs
  rw [eB] at hBs
  cases hAs
  cases hBs
  exact Logs.congr (logs_bind (sliceKara_logs Cs _ _ h2 h16) fun Cs' _ => logs_quietly _) (List.append_nil _)

/-- the products `mzed_mul` and `mzed_addmul` make -/
theorem mulTop_logs {env : MulEnv} {A B C : Mzed} {MA MB : Nat → Nat → Elem ff} (hA : Rep A MA) (hB : Rep B MB) : ∃ l,
    Logs (mzedMulL env C A B) (mzedMul? env C A B) l ∧ Logs (mzedAddmulL env C A B) (mzedAddmul? env C A B) l ∧
    (512 ≤ A.nrows ∧ 512 ≤ A.ncols ∧ 512 ≤ B.ncols → l = List.replicate (documentedProducts ff.degree) (.gf2 A.nrows A.ncols B.ncols)) ∧
    (¬ (512 ≤ A.nrows ∧ 512 ≤ A.ncols ∧ 512 ≤ B.ncols) → totalSize l ≤ A.nrows * A.ncols * B.ncols ∧ ∀ p ∈ l, ∃ m k n, p = .newtonJohn m k n) := by
  by_cases hs : 512 ≤ A.nrows ∧ 512 ≤ A.ncols ∧ 512 ≤ B.ncols
  · refine ⟨_, ?_, ?_, fun _ => rfl, fun h => absurd hs h⟩
    · refine Logs.congr (logs_bind (logs_quietly _) fun D hD => ?_) (List.nil_append _)
      have hs' : A.nrows ≥ 512 ∧ A.ncols ≥ 512 ∧ B.ncols ≥ 512 := hs
      unfold mzedMulRaw?
      rw [if_pos hs', if_pos hs']
      exact addmulKaraL_logs hA hB D
    · refine Logs.congr (logs_bind (logs_quietly _) fun D hD => ?_) (List.nil_append _)
      have hs' : A.nrows ≥ 512 ∧ A.ncols ≥ 512 ∧ B.ncols ≥ 512 := hs
      unfold mzedAddmulRaw?
      rw [if_pos hs', if_pos hs']
      exact addmulKaraL_logs hA hB D
  · refine ⟨strassenLog (degreeToW ff.degree) (strassenCutoff env.sq env.l2 A.ff.degree A.w) (strassenDepth A B) A.nrows A.ncols B.ncols, ?_, ?_,
      fun h => absurd h hs, fun _ => ⟨strassenLog_size _ _ _ _ _ _, strassenLog_nj _ _ _ _ _ _⟩⟩
    · refine Logs.congr (logs_bind (logs_quietly _) fun D hD => ?_) (List.nil_append _)
      obtain ⟨d1, d2⟩ := mulInit_dims hD
      have hs' : ¬ (A.nrows ≥ 512 ∧ A.ncols ≥ 512 ∧ B.ncols ≥ 512) := hs
      unfold mzedMulRaw?
      rw [if_neg hs', if_neg hs']
      exact mulStrassen_logs _ _ ff _ _ _ _ D A B hA.wEq hA.ffEq d1 d2 rfl rfl rfl
    · refine Logs.congr (logs_bind (logs_quietly _) fun D hD => ?_) (List.nil_append _)
      obtain ⟨d1, d2⟩ := mulInit_dims hD
      have hs' : ¬ (A.nrows ≥ 512 ∧ A.ncols ≥ 512 ∧ B.ncols ≥ 512) := hs
      unfold mzedAddmulRaw?
      rw [if_neg hs', if_neg hs']
      exact addmulStrassen_logs _ _ ff _ _ _ _ D A B hA.wEq hA.ffEq d1 d2 rfl rfl rfl

section
variable {env : MulEnv} (henv : env.Ok ff.degree)
    {A B C : Mzed} {MA MB MC : Nat → Nat → Elem ff} (hA : Rep A MA) (hB : Rep B MB) (hC : Rep C MC) (hfit : Fits C A B)
include henv hA hB hC hfit

/-- **C75** `mzed_mul(C,A,B)` and `mzed_addmul(C,A,B)`: when all three dimensions are at least 512, exactly the documented number of products over GF(2)
of the size of the product; otherwise only Newton-John products, together no larger than the product itself. -/
theorem C75_mul (hn : 0 < B.ncols) : ∃ R R' l, mzedMulL env C A B [] = some (R, l) ∧ mzedAddmulL env C A B [] = some (R', l) ∧
    HoldsProduct R C A.ncols MC MA MB ∧ HoldsSumProduct R' C A.ncols MC MA MB ∧
    (512 ≤ A.nrows ∧ 512 ≤ A.ncols ∧ 512 ≤ B.ncols → l = List.replicate (documentedProducts ff.degree) (.gf2 A.nrows A.ncols B.ncols)) ∧
    (¬ (512 ≤ A.nrows ∧ 512 ≤ A.ncols ∧ 512 ≤ B.ncols) → totalSize l ≤ A.nrows * A.ncols * B.ncols ∧ ∀ p ∈ l, ∃ m k n, p = .newtonJohn m k n) := by
  obtain ⟨R, e, hR⟩ := C25_mul henv hA hB hC hfit hn
  obtain ⟨R', e', hR'⟩ := C25_addmul henv hA hB hC hfit hn
  obtain ⟨l, l1, l2, h1, h2⟩ := mulTop_logs (env := env) (C := C) hA hB
  exact ⟨R, R', l, by rw [l1, e]; rfl, by rw [l2, e']; rfl, hR, hR', h1, h2⟩

end

/-! ### Cases that meet the hypotheses -/

-- 70x65 times 65x3 over GF(2^8), sliced: 27 products
example : ∃ ff, ∃ _ : IsField ff, ∃ (A B C : Slice) (MA MB MC : Nat → Nat → Elem ff), SRep A MA ∧ SRep B MB ∧
    SRep C MC ∧ SFits C A B ∧ documentedProducts ff.degree = 27 ∧ A.nrows = 70 ∧ A.ncols = 65 ∧ MA 3 4 = 1 ∧ MC 5 5 = 1 := by
  obtain ⟨ff, h, hd⟩ := exists_aes
  refine ⟨ff, h, Mat.spack (ff := ff) ⟨70, 65, 0, fun _ _ => 1⟩, Mat.spack (ff := ff) ⟨65, 3, 0, fun i j => if i = j then 1 else 0⟩,
    Mat.spack (ff := ff) ⟨70, 3, 0, fun i _ => if i = 5 then 1 else 0⟩, _, _, _, spack_rep _, spack_rep _, spack_rep _, ?_, ?_, rfl, rfl, ?_, ?_⟩
  · exact ⟨rfl, rfl, rfl, rfl, rfl⟩
  · rw [hd]; rfl
  · simp
  · simp

-- 64x64 = 2^2 16 over GF(2^8), packed, cutoff 16: 49 products of 16x16 matrices
example : ∃ ff, ∃ _ : IsField ff, ∃ cb : Codebook, cb.Ok ff.degree ∧ ∃ (A B C : Mzed) (MA MB MC : Nat → Nat → Elem ff), Rep A MA ∧ Rep B MB ∧
    Rep C MC ∧ Fits C A B ∧ 64 / A.w ∣ 16 ∧ 128 / A.w ≤ 16 + 1 ∧ A.nrows = 2 ^ 2 * 16 ∧ A.ncols = 2 ^ 2 * 16 ∧ B.ncols = 2 ^ 2 * 16 ∧
    MA 3 4 = 1 ∧ MC 5 5 = 1 := by
  obtain ⟨ff, h, hd⟩ := exists_aes
  refine ⟨ff, h, grayCode, grayCode_ok _, Mat.pack (ff := ff) ⟨64, 64, 0, fun _ _ => 1⟩, Mat.pack (ff := ff) ⟨64, 64, 0, fun i j => if i = j then 1 else 0⟩,
    Mat.pack (ff := ff) ⟨64, 64, 0, fun i _ => if i = 5 then 1 else 0⟩, _, _, _, pack_rep _, pack_rep _, pack_rep _, ?_, ?_, ?_, ?_, ?_, ?_, ?_, ?_⟩
  · constructor <;> simp only [pack_nrows, pack_ncols, pack_fid]
  · rw [pack_w, hd]; decide
  · rw [pack_w, hd]; decide
  · rw [pack_nrows]; norm_num
  · rw [pack_ncols]; norm_num
  · rw [pack_ncols]; norm_num
  · simp
  · simp

-- 600x512 times 512x520 (Karatsuba) and 100x3 times 3x1 (Newton-John) over GF(2^8), with a 1 MB cache
example : ∃ ff, ∃ _ : IsField ff, ff.degree = 8 ∧ ∃ env : MulEnv, env.Ok ff.degree ∧ (∃ (A B C : Mzed) (MA MB MC : Nat → Nat → Elem ff),
    Rep A MA ∧ Rep B MB ∧ Rep C MC ∧ Fits C A B ∧ A.nrows = 600 ∧ A.ncols = 512 ∧ B.ncols = 520 ∧ MA 3 4 = 1 ∧ MC 5 5 = 1) ∧
    (∃ (A B C : Mzed) (MA MB MC : Nat → Nat → Elem ff),
    Rep A MA ∧ Rep B MB ∧ Rep C MC ∧ Fits C A B ∧ A.nrows = 100 ∧ A.ncols = 3 ∧ B.ncols = 1 ∧ MA 3 4 = 1 ∧ MC 5 5 = 1) := by
  obtain ⟨ff, h, hd⟩ := exists_aes
  refine ⟨ff, h, hd, ⟨grayCode, 2048, Nat.sqrt, 1048576⟩, ⟨grayCode_ok _, by norm_num, rfl, by norm_num⟩, ?_, ?_⟩
  · refine ⟨Mat.pack (ff := ff) ⟨600, 512, 0, fun _ _ => 1⟩, Mat.pack (ff := ff) ⟨512, 520, 0, fun i j => if i = j then 1 else 0⟩,
      Mat.pack (ff := ff) ⟨600, 520, 0, fun i _ => if i = 5 then 1 else 0⟩, _, _, _, pack_rep _, pack_rep _, pack_rep _, ?_, ?_, ?_, ?_, ?_, ?_⟩
    · constructor <;> simp only [pack_nrows, pack_ncols, pack_fid]
    all_goals simp [pack_nrows, pack_ncols]
  · refine ⟨Mat.pack (ff := ff) ⟨100, 3, 0, fun _ _ => 1⟩, Mat.pack (ff := ff) ⟨3, 1, 0, fun i j => if i = j then 1 else 0⟩,
      Mat.pack (ff := ff) ⟨100, 1, 0, fun i _ => if i = 5 then 1 else 0⟩, _, _, _, pack_rep _, pack_rep _, pack_rep _, ?_, ?_, ?_, ?_, ?_, ?_⟩
    · constructor <;> simp only [pack_nrows, pack_ncols, pack_fid]
    all_goals simp [pack_nrows, pack_ncols]

end M4rie.Props
