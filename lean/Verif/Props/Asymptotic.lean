import Verif.Proofs.Asymptotic
import Verif.Props.Cost

/-!
# C79: multiplication is asymptotically fast

README.md: "asymptotically fast O(n^(log_2 7)) matrix multiplication using Newton-John table based multiplication & the Strassen-Winograd algorithm" and
"... using the Karatsuba trick".  C75 counts exactly for dimensions which are powers of two times the cutoff; here the dimensions are arbitrary, so that all the
rows and columns that the rounding to whole words leaves over are paid for, and the constants depend on nothing but the cutoff.
-/

namespace M4rie.Props
open M4rie M4rie.Spec

variable {ff : Gf2e} [IsField ff]

section
variable {cb : Codebook} (hcb : cb.Ok ff.degree) {bs : Nat} (hbs : 16 ≤ bs)
    {A B C : Mzed} {MA MB MC : Nat → Nat → Elem ff} (hA : Rep A MA) (hB : Rep B MB) (hC : Rep C MC) (hfit : Fits C A B)
include hcb hbs hA hB hC hfit

/-- **C79** `mzed_mul_strassen(C,A,B,cutoff)` and `mzed_addmul_strassen(C,A,B,cutoff)` with all dimensions at most `N`: the Newton-John products they are reduced to
have together size at most `7 (2 cutoff + 253) N^(log_2 7)`. -/
theorem C79_strassen (cutoff : Int) {N : Nat} (hN : 0 < N) (hm : A.nrows ≤ N) (hk : A.ncols ≤ N) (hn : B.ncols ≤ N) :
    (∀ R l, mzedMulStrassenL cb bs C A B cutoff [] = some (R, l) → HoldsProduct R C A.ncols MC MA MB ∧ (∀ p ∈ l, ∃ m k n, p = .newtonJohn m k n) ∧
      (totalSize l : ℝ) ≤ 7 * (((2 * cutoff).toNat : ℝ) + 253) * (N : ℝ) ^ Real.logb 2 7) ∧
    (∀ R l, mzedAddmulStrassenL cb bs C A B cutoff [] = some (R, l) → HoldsSumProduct R C A.ncols MC MA MB ∧ (∀ p ∈ l, ∃ m k n, p = .newtonJohn m k n) ∧
      (totalSize l : ℝ) ≤ 7 * (((2 * cutoff).toNat : ℝ) + 253) * (N : ℝ) ^ Real.logb 2 7) := by
  obtain ⟨h1, h2⟩ := mulStrassenTop_logs (cb := cb) (bs := bs) (C := C) (B := B) hA cutoff
  have hw : OkW (degreeToW ff.degree) := okW_ff
  constructor
  · intro R l h
    rw [h1 []] at h
    obtain ⟨R', hR, e⟩ := Option.map_eq_some_iff.1 h
    cases e
    exact ⟨(C23_mul_strassen hcb hbs hA hB hC hfit cutoff).1 _ hR, strassenLog_nj _ _ _ _ _ _, strassenLog_log7 hw cutoff _ hN hm hk hn⟩
  · intro R l h
    rw [h2 []] at h
    obtain ⟨R', hR, e⟩ := Option.map_eq_some_iff.1 h
    cases e
    exact ⟨(C24_addmul_strassen hcb hbs hA hB hC hfit cutoff).1 _ hR, strassenLog_nj _ _ _ _ _ _, strassenLog_log7 hw cutoff _ hN hm hk hn⟩

end

/-! ### The dispatch, and slices: as fast as the multiplication over GF(2) -/

/-- what the products of a log cost together, when `cost p` is what `p` costs -/
noncomputable def totalCost (cost : Product → ℝ) (l : List Product) : ℝ := (l.map cost).sum

omit [IsField ff] in
theorem totalCost_replicate (cost : Product → ℝ) (c : Nat) (p : Product) : totalCost cost (List.replicate c p) = c * cost p := by
  unfold totalCost
  rw [List.map_replicate, List.sum_replicate, nsmul_eq_mul]

theorem totalCost_size {cost : Product → ℝ} {a : ℝ} : ∀ l : List Product, (∀ p ∈ l, cost p ≤ a * p.size) → totalCost cost l ≤ a * totalSize l
  | [], _ => by simp [totalCost, totalSize]
  | p :: l, h => by
    have h1 := totalCost_size l fun q hq => h q (List.mem_cons_of_mem _ hq)
    have h2 := h p List.mem_cons_self
    unfold totalCost totalSize at *
    rw [List.map_cons, List.sum_cons, List.map_cons, List.sum_cons, Nat.cast_add, mul_add]
    exact add_le_add h2 h1

section
variable {A B C : Slice} {MA MB MC : Nat → Nat → Elem ff} (hA : SRep A MA) (hB : SRep B MB) (hC : SRep C MC) (h : SFits C A B)
include hA hB hC h

/-- **C79** `mzd_slice_mul(C,A,B)` and `mzd_slice_addmul(C,A,B)` with all dimensions at most `N`: if M4RI multiplies over GF(2) in time `b N^ω`, they take at most
3, 6, 9, 13, .., 64 times that (e = 2, .., 16), in particular at most `64 b N^ω`: over GF(2^e) the exponent is the one over GF(2). -/
theorem C79_slice {cost : Product → ℝ} {b ω : ℝ} {N : Nat} (hb : 0 ≤ b) (hm : A.nrows ≤ N) (hk : A.ncols ≤ N) (hn : B.ncols ≤ N)
    (hcost : ∀ m k n, m ≤ N → k ≤ N → n ≤ N → cost (.gf2 m k n) ≤ b * (N : ℝ) ^ ω) :
    ∃ R R' l, mzdSliceMulKaratsubaL C A B [] = some (R, l) ∧ SHoldsProduct R C A.ncols MC MA MB ∧
      mzdSliceAddmulKaratsubaL C A B [] = some (R', l) ∧ SHoldsSumProduct R' C A.ncols MC MA MB ∧
      totalCost cost l ≤ documentedProducts ff.degree * (b * (N : ℝ) ^ ω) ∧ totalCost cost l ≤ 64 * b * (N : ℝ) ^ ω := by
  obtain ⟨R, e, hR⟩ := C75_slice_mul hA hB hC h
  obtain ⟨R', e', hR'⟩ := C75_slice_addmul hA hB hC h
  have h2 := IsField.two_le (ff := ff)
  have h16 := (Fact.out : FFOK ff).min.e16
  have hc := hcost _ _ _ hm hk hn
  have hd : documentedProducts ff.degree ≤ 64 := by
    generalize ff.degree = d at *
    interval_cases d <;> decide
  have hd' : (documentedProducts ff.degree : ℝ) ≤ 64 := by exact_mod_cast hd
  have hp : 0 ≤ b * (N : ℝ) ^ ω := mul_nonneg hb (Real.rpow_nonneg (Nat.cast_nonneg _) _)
  have h1 : totalCost cost (List.replicate (documentedProducts ff.degree) (.gf2 A.nrows A.ncols B.ncols)) ≤ documentedProducts ff.degree * (b * (N : ℝ) ^ ω) := by
    rw [totalCost_replicate]
    exact mul_le_mul_of_nonneg_left hc (Nat.cast_nonneg _)
  exact ⟨R, R', _, e, hR, e', hR', h1, h1.trans ((mul_le_mul_of_nonneg_right hd' hp).trans_eq (mul_assoc _ _ _).symm)⟩

end

section
variable {env : MulEnv} (henv : env.Ok ff.degree)
    {A B C : Mzed} {MA MB MC : Nat → Nat → Elem ff} (hA : Rep A MA) (hB : Rep B MB) (hC : Rep C MC) (hfit : Fits C A B)
include henv hA hB hC hfit

/-- **C79** `mzed_mul(C,A,B)` and `mzed_addmul(C,A,B)` with all dimensions at most `N`: if M4RI multiplies over GF(2) in time `b N^ω`, `ω ≥ 2`, and a Newton-John
product takes time `a` for each of the `m k n` products of entries, the products they make take at most `(512 a + 64 b) N^ω`. -/
theorem C79_mul {cost : Product → ℝ} {a b ω : ℝ} {N : Nat} (ha : 0 ≤ a) (hb : 0 ≤ b) (hω : 2 ≤ ω) (h0 : 0 < B.ncols)
    (hm : A.nrows ≤ N) (hk : A.ncols ≤ N) (hn : B.ncols ≤ N)
    (hcost : ∀ m k n, m ≤ N → k ≤ N → n ≤ N → cost (.gf2 m k n) ≤ b * (N : ℝ) ^ ω) (hnj : ∀ m k n, cost (.newtonJohn m k n) ≤ a * (m * k * n : Nat)) :
    ∃ R R' l, mzedMulL env C A B [] = some (R, l) ∧ HoldsProduct R C A.ncols MC MA MB ∧
      mzedAddmulL env C A B [] = some (R', l) ∧ HoldsSumProduct R' C A.ncols MC MA MB ∧
      totalCost cost l ≤ (512 * a + 64 * b) * (N : ℝ) ^ ω := by
  obtain ⟨R, R', l, e, e', hR, hR', big, small⟩ := C75_mul henv hA hB hC hfit h0
  refine ⟨R, R', l, e, hR, e', hR', ?_⟩
  have h2 := IsField.two_le (ff := ff)
  have h16 := (Fact.out : FFOK ff).min.e16
  have hN : 1 ≤ N := by omega
  have hNr : (1 : ℝ) ≤ N := by exact_mod_cast hN
  have hp : 0 ≤ (N : ℝ) ^ ω := Real.rpow_nonneg (Nat.cast_nonneg _) _
  by_cases hs : 512 ≤ A.nrows ∧ 512 ≤ A.ncols ∧ 512 ≤ B.ncols
  · rw [big hs, totalCost_replicate]
    have hd : documentedProducts ff.degree ≤ 64 := by
      generalize ff.degree = d at *
      interval_cases d <;> decide
    have hd' : (documentedProducts ff.degree : ℝ) ≤ 64 := by exact_mod_cast hd
    have hc := hcost _ _ _ hm hk hn
    have hpb : 0 ≤ b * (N : ℝ) ^ ω := mul_nonneg hb hp
    have h1 := mul_le_mul_of_nonneg_left hc (Nat.cast_nonneg (α := ℝ) (documentedProducts ff.degree))
    have h2 := mul_le_mul_of_nonneg_right hd' hpb
    have h3 : 0 ≤ 512 * a * (N : ℝ) ^ ω := mul_nonneg (by linarith) hp
    linarith
  · obtain ⟨hsz, hall⟩ := small hs
    have h1 : totalCost cost l ≤ a * totalSize l := totalCost_size l fun p hp => by
      obtain ⟨m, k, n, rfl⟩ := hall p hp
      exact hnj m k n
    have h3 : totalSize l ≤ 512 * (N * N) := by
      refine hsz.trans ?_
      have hs' : A.nrows ≤ 512 ∨ A.ncols ≤ 512 ∨ B.ncols ≤ 512 := by omega
      rcases hs' with hs' | hs' | hs'
      · have := mul3_le hs' hk hn; nlinarith
      · have := mul3_le hm hs' hn; nlinarith
      · have := mul3_le hm hk hs'; nlinarith
    have h3' : (totalSize l : ℝ) ≤ 512 * (N : ℝ) ^ ω := by
      have e1 : (totalSize l : ℝ) ≤ 512 * ((N : ℝ) * N) := by exact_mod_cast h3
      have e2 : (N : ℝ) * N ≤ (N : ℝ) ^ ω := by
        have := Real.rpow_le_rpow_of_exponent_le hNr hω
        rwa [Real.rpow_two, pow_two] at this
      linarith
    have h4 := mul_le_mul_of_nonneg_left h3' ha
    have h5 : 0 ≤ 64 * b * (N : ℝ) ^ ω := mul_nonneg (by linarith) hp
    linarith

end

/-! ### Cases that meet the hypotheses -/

-- 1000x700 times 700x900 over GF(2^8), packed, cutoff 256: neither powers of two nor multiples of the cutoff
example : ∃ ff, ∃ _ : IsField ff, ∃ cb : Codebook, cb.Ok ff.degree ∧ ∃ (A B C : Mzed) (MA MB MC : Nat → Nat → Elem ff), Rep A MA ∧ Rep B MB ∧
    Rep C MC ∧ Fits C A B ∧ A.nrows ≤ 1000 ∧ A.ncols ≤ 1000 ∧ B.ncols ≤ 1000 ∧ A.nrows = 1000 ∧ A.ncols = 700 ∧ MA 3 4 = 1 ∧ MC 5 5 = 1 := by
  obtain ⟨ff, h, hd⟩ := exists_aes
  refine ⟨ff, h, grayCode, grayCode_ok _, Mat.pack (ff := ff) ⟨1000, 700, 0, fun _ _ => 1⟩, Mat.pack (ff := ff) ⟨700, 900, 0, fun i j => if i = j then 1 else 0⟩,
    Mat.pack (ff := ff) ⟨1000, 900, 0, fun i _ => if i = 5 then 1 else 0⟩, _, _, _, pack_rep _, pack_rep _, pack_rep _, ?_, ?_, ?_, ?_, ?_, ?_, ?_, ?_⟩
  · constructor <;> simp only [pack_nrows, pack_ncols, pack_fid]
  all_goals simp [pack_nrows, pack_ncols]

-- the schoolbook method over GF(2) costs no more than `N^3`, and Newton-John products no more than one step for each product of entries
example : ∃ (cost : Product → ℝ) (a b ω : ℝ), 0 ≤ a ∧ 0 ≤ b ∧ 2 ≤ ω ∧ cost (.gf2 600 512 520) = 600 * 512 * 520 ∧
    (∀ m k n, m ≤ 600 → k ≤ 600 → n ≤ 600 → cost (.gf2 m k n) ≤ b * ((600 : Nat) : ℝ) ^ ω) ∧ (∀ m k n, cost (.newtonJohn m k n) ≤ a * (m * k * n : Nat)) := by
  refine ⟨fun p => p.size, 1, 1, 3, by norm_num, by norm_num, by norm_num, by norm_num [Product.size], fun m k n hm hk hn => ?_, fun m k n => ?_⟩
  · have h := mul3_le hm hk hn
    have h' : ((m * k * n : Nat) : ℝ) ≤ ((600 * 600 * 600 : Nat) : ℝ) := by exact_mod_cast h
    have e : ((600 : Nat) : ℝ) ^ (3 : ℝ) = ((600 * 600 * 600 : Nat) : ℝ) := by
      rw [show (3 : ℝ) = ((3 : Nat) : ℝ) by norm_num, Real.rpow_natCast]
      norm_num
    rw [e, one_mul]
    exact h'
  · simp [Product.size]

end M4rie.Props
