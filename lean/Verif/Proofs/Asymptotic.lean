import Verif.Proofs.Cost
import Mathlib.Analysis.SpecialFunctions.Pow.Real
import Mathlib.Analysis.SpecialFunctions.Log.Base

/-!
# The size of the log of a Strassen-Winograd product, for all dimensions
-/

namespace M4rie
open M4rie.Spec

theorem halfDim_half (w d : Nat) : halfDim w d ≤ d / 2 := by unfold halfDim; omega

/-- fewer than 64 rows or columns are left over by one level -/
theorem halfDim_rest {w : Nat} (hw : OkW w) (d : Nat) : d - 2 * halfDim w d ≤ 63 := by
  unfold halfDim
  rcases hw with rfl | rfl | rfl | rfl <;> norm_num <;> omega

theorem closer_le {d : Nat} {c : Int} (h : closer d (d / 2) c = true) : d ≤ (2 * c).toNat := by
  unfold closer at h
  rw [decide_eq_true_eq] at h
  omega

theorem mul3_le {a b c x y z : Nat} (h1 : a ≤ x) (h2 : b ≤ y) (h3 : c ≤ z) : a * b * c ≤ x * y * z :=
  Nat.mul_le_mul (Nat.mul_le_mul h1 h2) h3

/-- what one level leaves over is only quadratic -/
theorem rest_quadratic {w : Nat} (hw : OkW w) {m k n N : Nat} (hm : m ≤ N) (hk : k ≤ N) (hn : n ≤ N) :
    totalSize (restLog m k n (2 * halfDim w m) (2 * halfDim w k) (2 * halfDim w n)) ≤ 189 * (N * N) := by
  have one : ∀ (x y : Nat) (p : Product), (p.size ≤ 63 * (N * N)) → totalSize (if x > y then [p] else []) ≤ 63 * (N * N) := by
    intro x y p h
    split_ifs
    · simpa [totalSize] using h
    · simp [totalSize]
  unfold restLog
  rw [totalSize_append, totalSize_append]
  have e1 := one n (2 * halfDim w n) (.newtonJohn m k (n - 2 * halfDim w n)) (by
    have := mul3_le hm hk (halfDim_rest hw n)
    simp only [Product.size]; nlinarith)
  have e2 := one m (2 * halfDim w m) (.newtonJohn (m - 2 * halfDim w m) k (2 * halfDim w n)) (by
    have := mul3_le (halfDim_rest hw m) hk ((halfDim_le w n).trans hn)
    simp only [Product.size]; nlinarith)
  have e3 := one k (2 * halfDim w k) (.newtonJohn (2 * halfDim w m) (k - 2 * halfDim w k) (2 * halfDim w n)) (by
    have := mul3_le ((halfDim_le w m).trans hm) (halfDim_rest hw k) ((halfDim_le w n).trans hn)
    simp only [Product.size]; nlinarith)
  omega

/-- the recursion `T(N) ≤ 7 T(N/2) + 189 N^2`, solved -/
theorem strassenLog_seven {w : Nat} (hw : OkW w) (cutoff : Int) : ∀ fuel j m k n, m ≤ 2 ^ j → k ≤ 2 ^ j → n ≤ 2 ^ j →
    totalSize (strassenLog w cutoff fuel m k n) + 252 * 4 ^ j ≤ ((2 * cutoff).toNat + 253) * 7 ^ j
  | 0, j, _, _, _, _, _, _ => by
    have : (4 : Nat) ^ j ≤ 7 ^ j := Nat.pow_le_pow_left (by norm_num) j
    simp only [strassenLog, totalSize, List.map_nil, List.sum_nil, Nat.zero_add]
    exact Nat.mul_le_mul (by omega) this
  | fuel + 1, 0, m, k, n, hm, hk, hn => by
    have h := strassenLog_size w cutoff (fuel + 1) m k n
    have := mul3_le hm hk hn
    simp only [pow_zero, mul_one] at *
    omega
  | fuel + 1, j + 1, m, k, n, hm, hk, hn => by
    have h47 : (4 : Nat) ^ (j + 1) ≤ 7 ^ (j + 1) := Nat.pow_le_pow_left (by norm_num) _
    have h22 : (2 : Nat) ^ (j + 1) * 2 ^ (j + 1) = 4 ^ (j + 1) := by rw [← mul_pow]; rfl
    have hp : 2 ^ (j + 1) / 2 = 2 ^ j := by rw [pow_succ]; omega
    have half : ∀ d, d ≤ 2 ^ (j + 1) → halfDim w d ≤ 2 ^ j := fun d hd => (halfDim_half w d).trans (hp ▸ Nat.div_le_div_right hd)
    have ih := strassenLog_seven hw cutoff fuel j _ _ _ (half m hm) (half k hk) (half n hn)
    have hr := rest_quadratic hw hm hk hn
    rw [h22] at hr
    unfold strassenLog
    split_ifs with h1 h2
    · simp only [totalSize, List.map_nil, List.sum_nil]
      nlinarith
    · simp only [totalSize, List.map_cons, List.map_nil, List.sum_cons, List.sum_nil, Product.size, Nat.add_zero]
      have hb : m * k * n ≤ (2 * cutoff).toNat * 4 ^ (j + 1) := by
        rw [← h22]
        unfold strassenBase at h2
        rw [Bool.or_eq_true, Bool.or_eq_true] at h2
        rcases h2 with (h2 | h2) | h2
        · have := mul3_le (closer_le h2) hk hn
          nlinarith
        · have := mul3_le hm (closer_le h2) hn
          nlinarith
        · have := mul3_le hm hk (closer_le h2)
          nlinarith
      nlinarith
    · rw [totalSize_append, totalSize_replicate]
      have e7 : (7 : Nat) ^ (j + 1) = 7 * 7 ^ j := by ring
      have e4 : (4 : Nat) ^ (j + 1) = 4 * 4 ^ j := by ring
      rw [e4] at hr
      have ec : ((2 * cutoff).toNat + 253) * 7 ^ (j + 1) = 7 * (((2 * cutoff).toNat + 253) * 7 ^ j) := by rw [e7]; ring
      rw [ec, e4]
      omega

/-- the same without powers of two -/
theorem strassenLog_log7 {w : Nat} (hw : OkW w) (cutoff : Int) (fuel : Nat) {m k n N : Nat} (hN : 0 < N) (hm : m ≤ N) (hk : k ≤ N) (hn : n ≤ N) :
    (totalSize (strassenLog w cutoff fuel m k n) : ℝ) ≤ 7 * (((2 * cutoff).toNat : ℝ) + 253) * (N : ℝ) ^ Real.logb 2 7 := by
  have hj : N ≤ 2 ^ Nat.clog 2 N := Nat.le_pow_clog (by norm_num) N
  have h := strassenLog_seven hw cutoff fuel (Nat.clog 2 N) m k n (hm.trans hj) (hk.trans hj) (hn.trans hj)
  have h' : (totalSize (strassenLog w cutoff fuel m k n) : ℝ) ≤ (((2 * cutoff).toNat : ℝ) + 253) * 7 ^ Nat.clog 2 N := by
    exact_mod_cast (Nat.le_add_right _ _).trans h
  have hNr : (0 : ℝ) < N := by exact_mod_cast hN
  -- 7^(clog N) ≤ 7 * N^(log2 7)
  have key : (7 : ℝ) ^ Nat.clog 2 N ≤ 7 * (N : ℝ) ^ Real.logb 2 7 := by
    rcases Nat.lt_or_ge 1 N with h1 | h1
    · have hlt : 2 ^ (Nat.clog 2 N - 1) < N := Nat.pow_pred_clog_lt_self (by norm_num) h1
      have hpos : 0 < Nat.clog 2 N := Nat.clog_pos (by norm_num) h1
      obtain ⟨i, hi⟩ : ∃ i, Nat.clog 2 N = i + 1 := ⟨Nat.clog 2 N - 1, by omega⟩
      rw [hi, Nat.add_sub_cancel] at hlt
      rw [hi, pow_succ, mul_comm]
      refine mul_le_mul_of_nonneg_left ?_ (by norm_num)
      have e : (7 : ℝ) ^ i = ((2 : ℝ) ^ i) ^ Real.logb 2 7 := by
        rw [← Real.rpow_natCast 2 i, ← Real.rpow_mul (by norm_num), mul_comm, Real.rpow_mul (by norm_num),
          Real.rpow_logb (by norm_num) (by norm_num) (by norm_num), Real.rpow_natCast]
      rw [e]
      refine Real.rpow_le_rpow (by positivity) (by exact_mod_cast hlt.le) (Real.logb_nonneg (by norm_num) (by norm_num))
    · obtain rfl : N = 1 := by omega
      simp
  calc (totalSize (strassenLog w cutoff fuel m k n) : ℝ) ≤ _ := h'
    _ ≤ (((2 * cutoff).toNat : ℝ) + 253) * (7 * (N : ℝ) ^ Real.logb 2 7) := mul_le_mul_of_nonneg_left key (by positivity)
    _ = _ := by ring

end M4rie
