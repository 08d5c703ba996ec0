import Verif.Model.CostTrsm
import Verif.Proofs.TrsmRec
import Mathlib.Analysis.SpecialFunctions.Pow.Real
import Mathlib.Algebra.BigOperators.Intervals

/-!
# Logs of the block recursion
-/

namespace M4rie
open Spec

/-- the calls for an `n × m` right hand side -/
def trsmCalls (up : Bool) (cutoff : Int) : Nat → Nat → Nat → List Call
  | 0, _, _ => []
  | fuel + 1, n, m =>
    if (n : Int) ≤ cutoff ∨ (m : Int) ≤ cutoff then [.solve n m]
    else if n < trsmSplit n then []
    else if up then trsmCalls up cutoff fuel (n - trsmSplit n) m ++ [.addmul (trsmSplit n) (n - trsmSplit n) m] ++ trsmCalls up cutoff fuel (trsmSplit n) m
    else trsmCalls up cutoff fuel (trsmSplit n) m ++ [.addmul (n - trsmSplit n) (trsmSplit n) m] ++ trsmCalls up cutoff fuel (n - trsmSplit n) m

/-- the instance `opsL` is `ops` with a log -/
structure TrsmLogs {τ : Type} (ops : TrsmOps τ) (opsL : TrsmOps (τ × List Call)) : Prop where
  nrows : ∀ p, opsL.nrows p = ops.nrows p.1
  ncols : ∀ p, opsL.ncols p = ops.ncols p.1
  window : ∀ p a b c d, opsL.window p a b c d = (ops.window p.1 a b c d, [])
  wrows : ∀ x a b c d, ops.nrows (ops.window x a b c d) = c - a
  wcols : ∀ x a b c d, ops.ncols (ops.window x a b c d) = d - b
  onWindow : ∀ x l a b c d f fL l1, (∀ W, ops.nrows W = c - a → ops.ncols W = d - b → fL (W, l) = (f W).map fun y => (y, l ++ l1)) →
    opsL.onWindow (x, l) a b c d fL = (ops.onWindow x a b c d f).map fun y => (y, l ++ l1)
  dims : ∀ x a b c d f y, ops.onWindow x a b c d f = some y → ops.nrows y = ops.nrows x ∧ ops.ncols y = ops.ncols x
  addmul : ∀ C l A B, opsL.addmul (C, l) A B = (ops.addmul C A.1 B.1).map fun y => (y, l ++ [.addmul (ops.nrows A.1) (ops.ncols A.1) (ops.ncols B.1)])
  lower : ∀ L B l, opsL.lowerNj L (B, l) = (ops.lowerNj L.1 B).map fun y => (y, l ++ [.solve (ops.nrows B) (ops.ncols B)])
  upper : ∀ L B l, opsL.upperNj L (B, l) = (ops.upperNj L.1 B).map fun y => (y, l ++ [.solve (ops.nrows B) (ops.ncols B)])

theorem mzedTrsm_logs (env : MulEnv) : TrsmLogs (mzedTrsmOps env) (mzedTrsmOpsL env) where
  nrows _ := rfl
  ncols _ := rfl
  window _ _ _ _ _ := rfl
  wrows _ _ _ _ _ := rfl
  wcols _ _ _ _ _ := rfl
  onWindow x l a b c d f fL l1 h := by
    show (fL (mzedWindow x a b c d, l)).map _ = Option.map _ (Option.map _ (f (mzedWindow x a b c d)))
    rw [h _ rfl rfl, Option.map_map, Option.map_map]
    rfl
  dims x a b c d f y h := by
    obtain ⟨W, -, rfl⟩ := Option.map_eq_some_iff.1 (show Option.map _ _ = some y from h)
    exact ⟨rfl, rfl⟩
  addmul _ _ _ _ := rfl
  lower _ _ _ := rfl
  upper _ _ _ := rfl

theorem sliceTrsm_logs (cb : Codebook) : TrsmLogs (sliceTrsmOps cb) (sliceTrsmOpsL cb) where
  nrows _ := rfl
  ncols _ := rfl
  window _ _ _ _ _ := rfl
  wrows _ _ _ _ _ := rfl
  wcols _ _ _ _ _ := rfl
  onWindow x l a b c d f fL l1 h := by
    show (fL (mzdSliceWindow x a b c d, l)).map _ = Option.map _ (Option.map _ (f (mzdSliceWindow x a b c d)))
    rw [h _ rfl rfl, Option.map_map, Option.map_map]
    rfl
  dims x a b c d f y h := by
    obtain ⟨W, -, rfl⟩ := Option.map_eq_some_iff.1 (show Option.map _ _ = some y from h)
    exact ⟨rfl, rfl⟩
  addmul _ _ _ _ := rfl
  lower _ _ _ := rfl
  upper _ _ _ := rfl

theorem bind_logs {τ : Type} {o : Option τ} {l l1 l2 : List Call} {f : τ → Option τ} {fL : τ × List Call → Option (τ × List Call)}
    (h : ∀ y, o = some y → fL (y, l ++ l1) = (f y).map fun z => (z, l ++ l1 ++ l2)) :
    (o.map fun y => (y, l ++ l1)).bind fL = (o.bind f).map fun z => (z, l ++ (l1 ++ l2)) := by
  cases o with
  | none => rfl
  | some y =>
    show fL (y, l ++ l1) = (f y).map _
    rw [h y rfl, List.append_assoc]

section
variable {τ : Type} {ops : TrsmOps τ} {opsL : TrsmOps (τ × List Call)} (H : TrsmLogs ops opsL) (cutoff : Int)
include H

theorem trsmLowerF_logs : ∀ fuel n m (L : τ × List Call) (B : τ) (l : List Call), ops.nrows L.1 = n → ops.nrows B = n → ops.ncols B = m →
    trsmLowerF opsL cutoff fuel L (B, l) = (trsmLowerF ops cutoff fuel L.1 B).map fun y => (y, l ++ trsmCalls false cutoff fuel n m)
  | 0, _, _, _, _, _, _, _, _ => rfl
  | fuel + 1, n, m, L, B, l, h1, h2, h3 => by
    unfold trsmLowerF trsmCalls
    dsimp only
    rw [H.nrows, H.nrows, H.ncols, h1, h2, h3]
    by_cases hb : (n : Int) ≤ cutoff ∨ (m : Int) ≤ cutoff
    · rw [if_pos hb, if_pos hb, if_pos hb, H.lower, h2, h3]
    rw [if_neg hb, if_neg hb, if_neg hb]
    generalize trsmSplit n = c
    by_cases hc : n < c
    · rw [if_pos hc, if_pos hc, if_pos hc]; rfl
    rw [if_neg hc, if_neg hc, if_neg hc, if_neg (by decide), List.append_assoc]
    rw [H.onWindow B l 0 0 c m (fun B0 => trsmLowerF ops cutoff fuel (ops.window L.1 0 0 c c) B0) _ (trsmCalls false cutoff fuel c m) fun W w1 w2 => by
      rw [H.window]
      exact trsmLowerF_logs fuel c m _ W l (by rw [H.wrows, Nat.sub_zero]) (by rw [w1, Nat.sub_zero]) (by rw [w2, Nat.sub_zero])]
    refine bind_logs fun B1 hB1 => ?_
    rw [H.onWindow B1 _ c 0 n m (fun W => ops.addmul W (ops.window L.1 c 0 n c) (ops.window B1 0 0 c m)) _ [.addmul (n - c) c m] fun W w1 w2 => by
      rw [H.window, H.window, H.addmul, H.wrows, H.wcols, H.wcols, Nat.sub_zero, Nat.sub_zero]]
    refine (bind_logs (l2 := trsmCalls false cutoff fuel (n - c) m) fun B2 hB2 => ?_).trans (by rw [List.append_assoc])
    exact H.onWindow B2 _ c 0 n m _ _ _ fun W w1 w2 => by
      rw [H.window]
      exact trsmLowerF_logs fuel (n - c) m _ W _ (by rw [H.wrows]) w1 (by rw [w2, Nat.sub_zero])

theorem trsmUpperF_logs : ∀ fuel n m (L : τ × List Call) (B : τ) (l : List Call), ops.nrows L.1 = n → ops.nrows B = n → ops.ncols B = m →
    trsmUpperF opsL cutoff fuel L (B, l) = (trsmUpperF ops cutoff fuel L.1 B).map fun y => (y, l ++ trsmCalls true cutoff fuel n m)
  | 0, _, _, _, _, _, _, _, _ => rfl
  | fuel + 1, n, m, L, B, l, h1, h2, h3 => by
    unfold trsmUpperF trsmCalls
    dsimp only
    rw [H.nrows, H.nrows, H.ncols, h1, h2, h3]
    by_cases hb : (n : Int) ≤ cutoff ∨ (m : Int) ≤ cutoff
    · rw [if_pos hb, if_pos hb, if_pos hb, H.upper, h2, h3]
    rw [if_neg hb, if_neg hb, if_neg hb]
    generalize trsmSplit n = c
    by_cases hc : n < c
    · rw [if_pos hc, if_pos hc, if_pos hc]; rfl
    rw [if_neg hc, if_neg hc, if_neg hc, if_pos rfl, List.append_assoc]
    rw [H.onWindow B l c 0 n m (fun B1 => trsmUpperF ops cutoff fuel (ops.window L.1 c c n n) B1) _ (trsmCalls true cutoff fuel (n - c) m) fun W w1 w2 => by
      rw [H.window]
      exact trsmUpperF_logs fuel (n - c) m _ W l (by rw [H.wrows]) w1 (by rw [w2, Nat.sub_zero])]
    refine bind_logs fun B1 hB1 => ?_
    rw [H.onWindow B1 _ 0 0 c m (fun W => ops.addmul W (ops.window L.1 0 c c n) (ops.window B1 c 0 n m)) _ [.addmul c (n - c) m] fun W w1 w2 => by
      rw [H.window, H.window, H.addmul, H.wrows, H.wcols, H.wcols, Nat.sub_zero, Nat.sub_zero]]
    refine (bind_logs (l2 := trsmCalls true cutoff fuel c m) fun B2 hB2 => ?_).trans (by rw [List.append_assoc])
    exact H.onWindow B2 _ 0 0 c m _ _ _ fun W w1 w2 => by
      rw [H.window]
      exact trsmUpperF_logs fuel c m _ W _ (by rw [H.wrows, Nat.sub_zero]) (by rw [w1, Nat.sub_zero]) (by rw [w2, Nat.sub_zero])

end

/-! ### Totals -/

theorem callsCost_append (cost : Call → ℝ) (a b : List Call) : callsCost cost (a ++ b) = callsCost cost a + callsCost cost b := by
  unfold callsCost
  rw [List.map_append, List.sum_append]

theorem callsCost_one (cost : Call → ℝ) (c : Call) : callsCost cost [c] = cost c := by
  unfold callsCost
  rw [List.map_singleton, List.sum_singleton]

theorem callsCost_nil (cost : Call → ℝ) : callsCost cost [] = 0 := rfl

theorem trsmSplit_bounds {n : Nat} (h : 64 < n) : trsmSplit n ≤ n ∧ 0 < trsmSplit n := by unfold trsmSplit; omega

/-- one step of the recursion -/
theorem trsmCalls_step (cost : Call → ℝ) (up : Bool) {cutoff : Int} (fuel : Nat) {n m : Nat} (h1 : ¬ ((n : Int) ≤ cutoff ∨ (m : Int) ≤ cutoff)) (h2 : trsmSplit n ≤ n) :
    ∃ x y, (x = trsmSplit n ∧ y = n - trsmSplit n ∨ x = n - trsmSplit n ∧ y = trsmSplit n) ∧
    callsCost cost (trsmCalls up cutoff (fuel + 1) n m) = callsCost cost (trsmCalls up cutoff fuel (trsmSplit n) m) + cost (.addmul x y m) +
      callsCost cost (trsmCalls up cutoff fuel (n - trsmSplit n) m) := by
  cases up
  · refine ⟨n - trsmSplit n, trsmSplit n, Or.inr ⟨rfl, rfl⟩, ?_⟩
    conv_lhs => unfold trsmCalls
    rw [if_neg h1, if_neg (Nat.not_lt.2 h2), if_neg (by decide), callsCost_append, callsCost_append, callsCost_one]
  · refine ⟨trsmSplit n, n - trsmSplit n, Or.inl ⟨rfl, rfl⟩, ?_⟩
    conv_lhs => unfold trsmCalls
    rw [if_neg h1, if_neg (Nat.not_lt.2 h2), if_pos rfl, callsCost_append, callsCost_append, callsCost_one]
    ring

theorem trsmCalls_leaf (up : Bool) {cutoff : Int} (fuel : Nat) {n m : Nat} (h : (n : Int) ≤ cutoff ∨ (m : Int) ≤ cutoff) : trsmCalls up cutoff (fuel + 1) n m = [.solve n m] := by
  unfold trsmCalls
  rw [if_pos h]

/-- together the calls are no larger than the system -/
theorem trsmCalls_size (up : Bool) (cutoff : Int) : ∀ fuel n m, ((trsmCalls up cutoff fuel n m).map Call.size).sum ≤ n * n * m
  | 0, _, _ => Nat.zero_le _
  | fuel + 1, n, m => by
    unfold trsmCalls
    split_ifs with h1 h2 h3
    · simp [Call.size]
    · simp
    · have i1 := trsmCalls_size up cutoff fuel (trsmSplit n) m
      have i2 := trsmCalls_size up cutoff fuel (n - trsmSplit n) m
      obtain ⟨d, hd⟩ : ∃ d, n = trsmSplit n + d := ⟨n - trsmSplit n, by omega⟩
      have hd' : n - trsmSplit n = d := by omega
      rw [hd'] at i2 ⊢
      simp only [List.map_append, List.sum_append, List.map_singleton, List.sum_singleton, Call.size]
      have : n * n * m = (trsmSplit n + d) * (trsmSplit n + d) * m := by rw [← hd]
      rw [this]
      nlinarith [Nat.zero_le (trsmSplit n * d * m)]
    · have i1 := trsmCalls_size up cutoff fuel (trsmSplit n) m
      have i2 := trsmCalls_size up cutoff fuel (n - trsmSplit n) m
      obtain ⟨d, hd⟩ : ∃ d, n = trsmSplit n + d := ⟨n - trsmSplit n, by omega⟩
      have hd' : n - trsmSplit n = d := by omega
      rw [hd'] at i2 ⊢
      simp only [List.map_append, List.sum_append, List.map_singleton, List.sum_singleton, Call.size]
      have : n * n * m = (trsmSplit n + d) * (trsmSplit n + d) * m := by rw [← hd]
      rw [this]
      nlinarith [Nat.zero_le (trsmSplit n * d * m)]

/-- the exact calls when all halves are even -/
theorem trsmCalls_pow (cost : Call → ℝ) (up : Bool) {b m : Nat} (hb : 0 < b) (hd : 64 ∣ b) (hm : b < m) : ∀ j fuel, j < fuel →
    callsCost cost (trsmCalls up b fuel (2 ^ j * b) m) =
      2 ^ j * cost (.solve b m) + ∑ i ∈ Finset.range j, 2 ^ (j - 1 - i) * cost (.addmul (2 ^ i * b) (2 ^ i * b) m)
  | _, 0, h => absurd h (Nat.not_lt_zero _)
  | 0, fuel + 1, _ => by
    rw [pow_zero, Nat.one_mul, trsmCalls_leaf _ _ (Or.inl le_rfl), callsCost_one]
    simp
  | j + 1, fuel + 1, h => by
    have e1 : 2 ^ (j + 1) * b = 2 * (2 ^ j * b) := by ring
    have h1 : b ≤ 2 ^ j * b := Nat.le_mul_of_pos_left _ (Nat.two_pow_pos j)
    obtain ⟨q, hq⟩ : 64 ∣ 2 ^ j * b := Dvd.dvd.mul_left hd _
    have hs : trsmSplit (2 ^ (j + 1) * b) = 2 ^ j * b := by
      unfold trsmSplit
      rw [e1]
      omega
    have hr : 2 ^ (j + 1) * b - trsmSplit (2 ^ (j + 1) * b) = 2 ^ j * b := by omega
    obtain ⟨x, y, hxy, e⟩ := trsmCalls_step cost up (cutoff := (b : Int)) fuel (n := 2 ^ (j + 1) * b) (m := m) (by
      rintro (h | h)
      · exact absurd (Int.ofNat_le.1 h) (by omega)
      · exact absurd (Int.ofNat_le.1 h) (by omega)) (by omega)
    rw [e, hr, hs, trsmCalls_pow cost up hb hd hm j fuel (by omega)]
    have hx : x = 2 ^ j * b ∧ y = 2 ^ j * b := by omega
    rw [hx.1, hx.2, Finset.sum_range_succ]
    have e2 : ∑ i ∈ Finset.range j, (2 : ℝ) ^ (j + 1 - 1 - i) * cost (.addmul (2 ^ i * b) (2 ^ i * b) m) =
        2 * ∑ i ∈ Finset.range j, 2 ^ (j - 1 - i) * cost (.addmul (2 ^ i * b) (2 ^ i * b) m) := by
      rw [Finset.mul_sum]
      refine Finset.sum_congr rfl fun i hi => ?_
      have hi' := Finset.mem_range.1 hi
      rw [show j + 1 - 1 - i = (j - 1 - i) + 1 by omega, pow_succ]
      ring
    rw [e2, show j + 1 - 1 - j = 0 by omega, pow_succ]
    ring

/-- systems are solved directly only if one dimension is not above the cutoff -/
theorem trsmCalls_direct (up : Bool) (cutoff : Int) : ∀ fuel n m, ∀ c ∈ trsmCalls up cutoff fuel n m, ∀ n1 m1, c = .solve n1 m1 → (n1 : Int) ≤ cutoff ∨ (m1 : Int) ≤ cutoff
  | 0, _, _, _, h => absurd h List.not_mem_nil
  | fuel + 1, n, m, c, h => by
    intro n1 m1 e
    unfold trsmCalls at h
    split_ifs at h with h1 h2 h3
    · rw [List.mem_singleton, e] at h
      cases h
      exact h1
    · exact absurd h List.not_mem_nil
    all_goals
      rw [List.mem_append, List.mem_append, List.mem_singleton] at h
      rcases h with (h | h) | h
      · exact trsmCalls_direct up cutoff fuel _ m c h n1 m1 e
      · rw [e] at h; cases h
      · exact trsmCalls_direct up cutoff fuel _ m c h n1 m1 e

/-- nothing is decomposed -/
theorem trsmCalls_noPle (up : Bool) (cutoff : Int) : ∀ fuel n m {m' n' : Nat}, .ple m' n' ∉ trsmCalls up cutoff fuel n m
  | 0, _, _, _, _ => List.not_mem_nil
  | fuel + 1, n, m, m', n' => by
    intro h
    unfold trsmCalls at h
    split_ifs at h with h1 h2 h3
    · rw [List.mem_singleton] at h
      cases h
    · exact absurd h List.not_mem_nil
    all_goals
      rw [List.mem_append, List.mem_append, List.mem_singleton] at h
      rcases h with (h | h) | h
      · exact trsmCalls_noPle up cutoff fuel _ m h
      · cases h
      · exact trsmCalls_noPle up cutoff fuel _ m h

/-! ### Arbitrary dimensions -/

theorem trsmSplit_half {n j : Nat} (h1 : 128 < n) (h2 : n ≤ 127 + 2 ^ (j + 1)) : trsmSplit n ≤ 127 + 2 ^ j ∧ n - trsmSplit n ≤ 127 + 2 ^ j := by
  have : 2 ^ (j + 1) = 2 * 2 ^ j := by ring
  unfold trsmSplit
  omega

/-- products and direct solving, when no dimension is a power of two -/
theorem trsmCalls_halves {cost : Call → ℝ} {g : Nat → ℝ} {a : ℝ} (up : Bool) {cutoff : Int} (hcut : 128 ≤ cutoff) {m : Nat} (hm : cutoff < m)
    (ha : ∀ n : Nat, (n : Int) ≤ cutoff → cost (.solve n m) ≤ a * n)
    {N : Nat} (hg : ∀ j x y, x ≤ N → y ≤ N → x ≤ 127 + 2 ^ j → y ≤ 127 + 2 ^ j → cost (.addmul x y m) ≤ g j) (hg0 : ∀ j, 0 ≤ g j) (ha0 : 0 ≤ a) :
    ∀ fuel j n, n ≤ N → n ≤ 127 + 2 ^ j →
    callsCost cost (trsmCalls up cutoff fuel n m) ≤ a * n + ∑ i ∈ Finset.range j, 2 ^ (j - 1 - i) * g i
  | 0, j, n, _, _ => by
    rw [show trsmCalls up cutoff 0 n m = [] from rfl, callsCost_nil]
    exact add_nonneg (mul_nonneg ha0 (Nat.cast_nonneg _)) (Finset.sum_nonneg fun i _ => mul_nonneg (by positivity) (hg0 i))
  | fuel + 1, j, n, hnN, hn => by
    by_cases hb : (n : Int) ≤ cutoff
    · rw [trsmCalls_leaf _ _ (Or.inl hb), callsCost_one]
      have := ha n hb
      have h0 : (0 : ℝ) ≤ ∑ i ∈ Finset.range j, 2 ^ (j - 1 - i) * g i := Finset.sum_nonneg fun i _ => mul_nonneg (by positivity) (hg0 i)
      linarith
    obtain ⟨q, rfl⟩ : ∃ q, j = q + 1 := by
      cases j with
      | zero => rw [pow_zero] at hn; omega
      | succ q => exact ⟨q, rfl⟩
    obtain ⟨c1, c2⟩ := trsmSplit_half (by omega) hn
    have c3 := (trsmSplit_bounds (n := n) (by omega)).1
    obtain ⟨x, y, hxy, e⟩ := trsmCalls_step cost up (cutoff := cutoff) fuel (n := n) (m := m) (by omega) c3
    have i1 := trsmCalls_halves up hcut hm ha hg hg0 ha0 fuel q _ (by omega) c1
    have i2 := trsmCalls_halves up hcut hm ha hg hg0 ha0 fuel q _ (by omega) c2
    have i3 := hg q x y (by omega) (by omega) (by omega) (by omega)
    rw [e]
    have e2 : ∑ i ∈ Finset.range (q + 1), (2 : ℝ) ^ (q + 1 - 1 - i) * g i = 2 * ∑ i ∈ Finset.range q, 2 ^ (q - 1 - i) * g i + g q := by
      rw [Finset.sum_range_succ, Finset.mul_sum, show q + 1 - 1 - q = 0 by omega, pow_zero, one_mul]
      refine congrArg (· + g q) (Finset.sum_congr rfl fun i hi => ?_)
      have hi' := Finset.mem_range.1 hi
      rw [show q + 1 - 1 - i = (q - 1 - i) + 1 by omega, pow_succ]
      ring
    have e3 : a * (n : ℝ) = a * (trsmSplit n : Nat) + a * ((n - trsmSplit n : Nat) : ℝ) := by
      rw [← mul_add, ← Nat.cast_add, Nat.add_sub_cancel' c3]
    rw [e2, e3]
    linarith

theorem rpow_add_four {x y p : ℝ} (hx : 0 ≤ x) (hy : 0 ≤ y) (hp0 : 0 ≤ p) (hp : p ≤ 2) : (x + y) ^ p ≤ 4 * (x ^ p + y ^ p) := by
  have h4 : (2 : ℝ) ^ p ≤ 4 := by
    have := Real.rpow_le_rpow_of_exponent_le (x := 2) (by norm_num) hp
    rw [Real.rpow_two] at this
    linarith
  have hxp := Real.rpow_nonneg hx p
  have hyp := Real.rpow_nonneg hy p
  have key : ∀ z : ℝ, 0 ≤ z → x ≤ z → y ≤ z → (x + y) ^ p ≤ 4 * z ^ p := by
    intro z hz h1 h2
    have h3 := Real.rpow_le_rpow (add_nonneg hx hy) (show x + y ≤ 2 * z by linarith) hp0
    rw [Real.mul_rpow (by norm_num) hz] at h3
    exact h3.trans (mul_le_mul_of_nonneg_right h4 (Real.rpow_nonneg hz p))
  rcases le_total x y with h | h
  · have := key y hy h le_rfl
    linarith
  · have := key x hx le_rfl h
    linarith

/-- the sum over the levels of the recursion -/
theorem levels_sum {p : ℝ} (hp1 : 1 < p) (hp2 : p ≤ 2) : ∀ j : Nat,
    ∑ i ∈ Finset.range j, (2 : ℝ) ^ (j - 1 - i) * (127 + (2 : ℝ) ^ i) ^ p ≤ 4 / ((2 : ℝ) ^ p - 2) * ((2 : ℝ) ^ p) ^ j + 64516 * (2 ^ j - 1)
  | 0 => by
    have h2 : (2 : ℝ) < (2 : ℝ) ^ p := by
      have := Real.rpow_lt_rpow_of_exponent_lt (x := 2) (by norm_num) hp1
      rwa [Real.rpow_one] at this
    rw [Finset.sum_range_zero]
    have : 0 ≤ 4 / ((2 : ℝ) ^ p - 2) := div_nonneg (by norm_num) (by linarith)
    simpa using this
  | j + 1 => by
    have ih := levels_sum hp1 hp2 j
    have h2 : (2 : ℝ) < (2 : ℝ) ^ p := by
      have := Real.rpow_lt_rpow_of_exponent_lt (x := 2) (by norm_num) hp1
      rwa [Real.rpow_one] at this
    have e2 : ∑ i ∈ Finset.range (j + 1), (2 : ℝ) ^ (j + 1 - 1 - i) * (127 + (2 : ℝ) ^ i) ^ p =
        2 * ∑ i ∈ Finset.range j, 2 ^ (j - 1 - i) * (127 + (2 : ℝ) ^ i) ^ p + (127 + (2 : ℝ) ^ j) ^ p := by
      rw [Finset.sum_range_succ, Finset.mul_sum, show j + 1 - 1 - j = 0 by omega, pow_zero, one_mul]
      refine congrArg (· + (127 + (2 : ℝ) ^ j) ^ p) (Finset.sum_congr rfl fun i hi => ?_)
      have hi' := Finset.mem_range.1 hi
      rw [show j + 1 - 1 - i = (j - 1 - i) + 1 by omega, pow_succ]
      ring
    have hq := rpow_add_four (x := 127) (y := 2 ^ j) (p := p) (by norm_num) (by positivity) (by linarith) hp2
    have h127 : (127 : ℝ) ^ p ≤ 16129 := by
      have := Real.rpow_le_rpow_of_exponent_le (x := 127) (by norm_num) hp2
      rw [Real.rpow_two] at this
      linarith
    have hsw : ((2 : ℝ) ^ j) ^ p = ((2 : ℝ) ^ p) ^ j := by
      rw [← Real.rpow_natCast, ← Real.rpow_natCast, ← Real.rpow_mul (by norm_num), ← Real.rpow_mul (by norm_num), mul_comm]
    rw [hsw] at hq
    rw [e2, pow_succ, pow_succ]
    set t := (2 : ℝ) ^ p
    have ht : 0 < t - 2 := by linarith
    have e3 : 4 / (t - 2) * (t ^ j * t) = 2 * (4 / (t - 2) * t ^ j) + 4 * t ^ j := by
      field_simp
      ring
    rw [e3]
    linarith

/-- solving a system costs as much as multiplying -/
theorem trsmCalls_fast {cost : Call → ℝ} {a b ω : ℝ} (up : Bool) {cutoff : Int} (hcut : 128 ≤ cutoff) {n m N : Nat} (hn0 : 0 < n) (hn : n ≤ N) (hmN : m ≤ N) (ha : 0 ≤ a) (hb : 0 ≤ b)
    (hω : 2 < ω) (hω3 : ω ≤ 3) (hsolve : ∀ n, cost (.solve n m) ≤ a * (n * n * m : Nat))
    (hmul : FastMul cost b ω) (fuel : Nat) :
    callsCost cost (trsmCalls up cutoff fuel n m) ≤ 16 * b / ((2 : ℝ) ^ (ω - 1) - 2) * (N : ℝ) ^ ω + (a * cutoff + 129032 * b) * (N : ℝ) ^ 2 := by
  have hN : (1 : ℝ) ≤ N := by exact_mod_cast (by omega : 1 ≤ N)
  have hNn : (n : ℝ) ≤ N := by exact_mod_cast hn
  have hNm : (m : ℝ) ≤ N := by exact_mod_cast hmN
  have ht : (2 : ℝ) < (2 : ℝ) ^ (ω - 1) := by
    have := Real.rpow_lt_rpow_of_exponent_lt (x := 2) (show (1 : ℝ) < 2 by norm_num) (show 1 < ω - 1 by linarith)
    rwa [Real.rpow_one] at this
  have hcr : (128 : ℝ) ≤ cutoff := by exact_mod_cast hcut
  have hNω : 0 ≤ (N : ℝ) ^ ω := Real.rpow_nonneg (by linarith) _
  have hlead : 0 ≤ 16 * b / ((2 : ℝ) ^ (ω - 1) - 2) * (N : ℝ) ^ ω := mul_nonneg (div_nonneg (by linarith) (by linarith)) hNω
  have hN2 : 0 ≤ (N : ℝ) ^ 2 := by positivity
  have hbN : 0 ≤ 129032 * b * (N : ℝ) ^ 2 := mul_nonneg (by linarith) hN2
  cases fuel with
  | zero =>
    rw [show trsmCalls up cutoff 0 n m = [] from rfl, callsCost_nil]
    have := mul_nonneg (mul_nonneg ha (show (0 : ℝ) ≤ cutoff by linarith)) hN2
    linarith
  | succ fuel =>
    by_cases hm : (m : Int) ≤ cutoff
    · rw [trsmCalls_leaf _ _ (Or.inr hm), callsCost_one]
      have h1 := hsolve n
      have h2 : ((n * n * m : Nat) : ℝ) ≤ cutoff * (N : ℝ) ^ 2 := by
        have hmr : (m : ℝ) ≤ cutoff := by exact_mod_cast hm
        have hnn : (n : ℝ) * n ≤ (N : ℝ) ^ 2 := by
          rw [pow_two]
          exact mul_le_mul hNn hNn (Nat.cast_nonneg _) (by linarith)
        push_cast
        have := mul_le_mul hnn hmr (Nat.cast_nonneg _) hN2
        linarith
      have h3 := mul_le_mul_of_nonneg_left h2 ha
      linarith
    · have hj : n ≤ 2 ^ Nat.clog 2 n := Nat.le_pow_clog (by norm_num) n
      have hj2 : 2 ^ Nat.clog 2 n ≤ 2 * n := by
        by_cases h1 : n = 1
        · subst h1; simp
        · have := (Nat.pow_pred_clog_lt_self (by norm_num : 1 < 2) (show 1 < n by omega)).le
          have h2 : 0 < Nat.clog 2 n := Nat.clog_pos (by norm_num) (by omega)
          obtain ⟨q, hq⟩ : ∃ q, Nat.clog 2 n = q + 1 := ⟨Nat.clog 2 n - 1, by omega⟩
          rw [hq] at this ⊢
          rw [pow_succ]
          simp only [Nat.pred_eq_sub_one, Nat.add_sub_cancel] at this
          omega
      have hc := trsmCalls_halves (cost := cost) (g := fun j => b * N * (127 + (2 : ℝ) ^ j) ^ (ω - 1)) (a := a * (cutoff * N)) up hcut (m := m) (by omega)
        (fun k hk => by
          refine (hsolve k).trans ?_
          have hkr : (k : ℝ) ≤ cutoff := by exact_mod_cast hk
          push_cast
          have h1 : (k : ℝ) * m ≤ cutoff * N := mul_le_mul hkr hNm (Nat.cast_nonneg _) (by linarith)
          have h2 := mul_le_mul_of_nonneg_left h1 (mul_nonneg ha (Nat.cast_nonneg (α := ℝ) k))
          nlinarith)
        (N := N) (fun j x y hxN hyN hx hy => by
          have := hmul x y m (min (127 + 2 ^ j) N) N (min_le_right _ _) (le_min hy hyN) ((min_le_left _ _).trans (le_min hx hxN)) (max_le hxN hmN)
          refine this.trans (mul_le_mul_of_nonneg_left (Real.rpow_le_rpow (Nat.cast_nonneg _) ?_ (by linarith)) (mul_nonneg hb (by linarith)))
          have h : ((min (127 + 2 ^ j) N : Nat) : ℝ) ≤ ((127 + 2 ^ j : Nat) : ℝ) := Nat.cast_le.2 (min_le_left _ _)
          push_cast at h ⊢
          exact h)
        (fun j => mul_nonneg (mul_nonneg hb (by linarith)) (Real.rpow_nonneg (by positivity) _))
        (mul_nonneg ha (mul_nonneg (by linarith) (by linarith))) (fuel + 1) (Nat.clog 2 n) n hn (by omega)
      refine hc.trans ?_
      have hs := levels_sum (p := ω - 1) (by linarith) (by linarith) (Nat.clog 2 n)
      have e1 : ∑ i ∈ Finset.range (Nat.clog 2 n), (2 : ℝ) ^ (Nat.clog 2 n - 1 - i) * (b * N * (127 + (2 : ℝ) ^ i) ^ (ω - 1)) =
          b * N * ∑ i ∈ Finset.range (Nat.clog 2 n), (2 : ℝ) ^ (Nat.clog 2 n - 1 - i) * (127 + (2 : ℝ) ^ i) ^ (ω - 1) := by
        rw [Finset.mul_sum]
        exact Finset.sum_congr rfl fun i _ => by ring
      rw [e1]
      have hJ : (2 : ℝ) ^ Nat.clog 2 n ≤ 2 * N := by
        have : ((2 ^ Nat.clog 2 n : Nat) : ℝ) ≤ ((2 * n : Nat) : ℝ) := by exact_mod_cast hj2
        push_cast at this
        linarith
      have hsw : ((2 : ℝ) ^ (ω - 1)) ^ Nat.clog 2 n = ((2 : ℝ) ^ Nat.clog 2 n) ^ (ω - 1) := by
        rw [← Real.rpow_natCast, ← Real.rpow_natCast, ← Real.rpow_mul (by norm_num), ← Real.rpow_mul (by norm_num), mul_comm]
      have hP : ((2 : ℝ) ^ (ω - 1)) ^ Nat.clog 2 n ≤ 4 * (N : ℝ) ^ (ω - 1) := by
        rw [hsw]
        have h1 := Real.rpow_le_rpow (by positivity) hJ (show 0 ≤ ω - 1 by linarith)
        rw [Real.mul_rpow (by norm_num) (by linarith)] at h1
        have h4 : (2 : ℝ) ^ (ω - 1) ≤ 4 := by
          have := Real.rpow_le_rpow_of_exponent_le (x := 2) (by norm_num) (show ω - 1 ≤ 2 by linarith)
          rw [Real.rpow_two] at this
          linarith
        exact h1.trans (mul_le_mul_of_nonneg_right h4 (Real.rpow_nonneg (by linarith) _))
      have hNN : (N : ℝ) * (N : ℝ) ^ (ω - 1) = (N : ℝ) ^ ω := by
        rw [← Real.rpow_one_add' (by linarith) (by linarith)]
        congr 1
        ring
      have hd : 0 ≤ 4 / ((2 : ℝ) ^ (ω - 1) - 2) := div_nonneg (by norm_num) (by linarith)
      have hs' : ∑ i ∈ Finset.range (Nat.clog 2 n), (2 : ℝ) ^ (Nat.clog 2 n - 1 - i) * (127 + (2 : ℝ) ^ i) ^ (ω - 1) ≤
          4 / ((2 : ℝ) ^ (ω - 1) - 2) * (4 * (N : ℝ) ^ (ω - 1)) + 64516 * (2 * N) := by
        have h1 := mul_le_mul_of_nonneg_left hP hd
        linarith
      have h5 := mul_le_mul_of_nonneg_left hs' (mul_nonneg hb (show (0 : ℝ) ≤ N by linarith))
      have e5 : b * N * (4 / ((2 : ℝ) ^ (ω - 1) - 2) * (4 * (N : ℝ) ^ (ω - 1)) + 64516 * (2 * N)) =
          16 * b / ((2 : ℝ) ^ (ω - 1) - 2) * (N : ℝ) ^ ω + 129032 * b * (N : ℝ) ^ 2 := by
        rw [← hNN]
        ring
      rw [e5] at h5
      have h6 : a * (cutoff * N) * (n : ℝ) ≤ a * cutoff * (N : ℝ) ^ 2 := by
        have h7 : 0 ≤ a * (cutoff * (N : ℝ)) := mul_nonneg ha (mul_nonneg (by linarith) (by linarith))
        have := mul_le_mul_of_nonneg_left hNn h7
        linarith [this, (by ring : a * (cutoff * (N : ℝ)) * N = a * cutoff * (N : ℝ) ^ 2)]
      linarith

end M4rie
