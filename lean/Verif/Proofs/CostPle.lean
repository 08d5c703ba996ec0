import Verif.Model.CostPle
import Verif.Proofs.CostTrsm
import Verif.Proofs.PleRecMain

/-!
# Logs of recursive decomposition and elimination
-/

namespace M4rie
open Spec

theorem onSWindowL_eq (A : Slice) (lr lc hr hc : Nat) {f : Slice → Option Slice} {fL : Slice → Option (Slice × List Call)} {l : List Call}
    (h : fL (mzdSliceWindow A lr lc hr hc) = (f (mzdSliceWindow A lr lc hr hc)).map fun y => (y, l)) :
    onSWindowL A lr lc hr hc fL = (onSWindow A lr lc hr hc f).map fun y => (y, l) := by
  unfold onSWindowL onSWindow
  rw [h, Option.map_map, Option.map_map]
  rfl

theorem sliceLowerL_eq (cb : Codebook) (L B : Slice) (cutoff : Int) (h : L.nrows = B.nrows) :
    mzdSliceTrsmLowerLeftL cb L B cutoff = (mzdSliceTrsmLowerLeft? cb L B cutoff).map fun y => (y, trsmCalls false cutoff (B.nrows + 1) B.nrows B.ncols) :=
  trsmLowerF_logs (sliceTrsm_logs cb) cutoff (B.nrows + 1) B.nrows B.ncols (L, []) B [] h rfl rfl

theorem sliceUpperL_eq (cb : Codebook) (U B : Slice) (cutoff : Int) (h : U.nrows = B.nrows) :
    mzdSliceTrsmUpperLeftL cb U B cutoff = (mzdSliceTrsmUpperLeft? cb U B cutoff).map fun y => (y, trsmCalls true cutoff (B.nrows + 1) B.nrows B.ncols) :=
  trsmUpperF_logs (sliceTrsm_logs cb) cutoff (B.nrows + 1) B.nrows B.ncols (U, []) B [] h rfl rfl

/-- the calls of one Schur complement: `m × n`, split at column `n1`, rank `r` of the first part -/
def schurCalls (m n n1 r : Nat) : List Call :=
  if r = 0 then [] else trsmCalls false mzedTrsmCutoff (r + 1) r (n - n1) ++ [.addmul (m - r) r (n - n1)]

theorem pleSchurL_eq (cb : Codebook) (A : Slice) (P1 : Nat → Nat) (r1 n1 : Nat) :
    pleSchurL? cb A P1 r1 n1 = (pleSchur? cb A P1 r1 n1).map fun y => (y, schurCalls A.nrows A.ncols n1 r1) := by
  unfold pleSchurL? pleSchur? schurCalls
  by_cases h : r1 = 0
  · simp only [if_pos h]; rfl
  simp only [if_neg h]
  rw [onSWindowL_eq (l := trsmCalls false mzedTrsmCutoff (r1 + 1) r1 (A.ncols - n1)) (f := fun A01 => mzdSliceTrsmLowerLeft? cb _ A01 mzedTrsmCutoff) _ _ _ _ _
    (sliceLowerL_eq cb _ _ _ (by rfl))]
  cases onSWindow _ 0 n1 r1 A.ncols _ with
  | none => rfl
  | some A2 =>
    rw [Option.map_some, Option.bind_some, Option.bind_some]
    dsimp only
    refine onSWindowL_eq (f := fun A11 => mzdSliceAddmulKaratsuba? A11 _ _) _ _ _ _ _ ?_
    rfl

/-- the calls a decomposition makes -/
inductive PleCalls (small : Nat → Nat → Bool) : Nat → Nat → List Call → Prop where
  | base {m n : Nat} : n ≤ 64 ∨ small m n = true → PleCalls small m n [.ple m n]
  | step {m n r : Nat} {l1 l2 : List Call} : ¬ (n ≤ 64 ∨ small m n = true) → r ≤ m → r ≤ pleSplit n → PleCalls small m (pleSplit n) l1 →
      PleCalls small (m - r) (n - pleSplit n) l2 → PleCalls small m n (l1 ++ schurCalls m n (pleSplit n) r ++ l2)

section
variable {ff : Gf2e} [IsField ff]

theorem mzdSlicePleFL_logs {env : PleEnv} (hc : CompressOk env.compress) (hcb : env.cb.Ok ff.degree) :
    ∀ fuel (X : Mat ff) P Q, X.ncols < fuel →
      ∃ res l, mzdSlicePleF env fuel X.spack P Q = some res ∧ mzdSlicePleFL env fuel X.spack P Q = some (res, l) ∧ PleCalls env.small X.nrows X.ncols l
  | 0, _, _, _, h => absurd h (by omega)
  | fuel + 1, X, P, Q, hf => by
    rw [mzdSlicePleF.eq_def, mzdSlicePleFL.eq_def]
    dsimp only
    rw [spack_nrows, spack_ncols]
    by_cases hb : X.ncols ≤ 64 ∨ env.small X.nrows X.ncols = true
    · rw [if_pos hb, if_pos hb]
      obtain ⟨Z, P', Q', r, e, -⟩ := slicePleBase_spack hcb X P Q
      rw [e]
      exact ⟨_, _, rfl, rfl, .base hb⟩
    rw [if_neg hb, if_neg hb]
    obtain ⟨hn64, hn0, hn⟩ := pleSplit_spec (n := X.ncols) (by omega)
    have hstep := fun r l1 l2 => PleCalls.step (small := env.small) (m := X.nrows) (n := X.ncols) (r := r) (l1 := l1) (l2 := l2) hb
    generalize pleSplit X.ncols = n1 at *
    rw [sliceWindow_spack X 0 0 _ _ rfl]
    obtain ⟨res1, l1, a1, b1, c1⟩ := mzdSlicePleFL_logs hc hcb fuel (X.window 0 0 X.nrows n1) P Q (by simp; omega)
    obtain ⟨Z1, P1, Q1, r1, e1, s1, d1, f1, p1, q1, i1⟩ := mzdSlicePleF_spack hc hcb fuel (X.window 0 0 X.nrows n1) P Q
      (by simp; omega)
    simp only [Mat.window_nrows, Mat.window_ncols, Nat.sub_zero] at s1 d1 f1 p1 q1 i1 c1
    rw [e1] at a1
    obtain rfl := Option.some.inj a1
    rw [e1, b1, Option.bind_some, Option.bind_some]
    simp only [sliceSetWindow_spack X Z1 0 0 rfl]
    rw [pleSchurL_eq]
    have eA1 : ∀ i j, (X.unwindow 0 0 Z1).e i j = Z1.e i j := fun i j => unwindow_zero_e X Z1 i j
    have d1' : IsPLE X.nrows n1 r1 X.e (X.unwindow 0 0 Z1).e P1 Q1 := IsPLE_congr d1 (fun i j _ _ => by simp [Mat.window]) (fun i j _ _ => eA1 i j)
    obtain ⟨A2, eS, sS, -⟩ := pleSchur_spack hcb (X.unwindow 0 0 Z1) P1 (r := r1) (n := n1) d1.le d1.rle hn hn64 (fun i hi => (d1.perm i hi).2)
      i1 d1'.diag
    have nA2 : A2.nrows = X.nrows := sS.nrows
    have cA2 : A2.ncols = X.ncols := sS.ncols
    rw [eS, Option.map_some, Option.bind_some, Option.bind_some]
    dsimp only
    rw [sliceWindow_spack A2 r1 n1 _ _ hn64]
    obtain ⟨res2, l2, a2, b2, c2⟩ := mzdSlicePleFL_logs hc hcb fuel (A2.window r1 n1 X.nrows X.ncols)
      (fun i => P1 (r1 + i)) (fun i => Q1 (n1 + i)) (by simp; omega)
    simp only [Mat.window_nrows, Mat.window_ncols] at c2
    rw [a2, b2, Option.bind_some, Option.bind_some]
    exact ⟨_, _, rfl, rfl, hstep r1 l1 l2 d1.le d1.rle c1 c2⟩

end

/-! ### Totals -/

theorem schurCalls_size {m n n1 r : Nat} : ((schurCalls m n n1 r).map Call.size).sum ≤ r * r * (n - n1) + (m - r) * r * (n - n1) := by
  unfold schurCalls
  split_ifs with h
  · simp
  · have := trsmCalls_size false mzedTrsmCutoff (r + 1) r (n - n1)
    simp only [List.map_append, List.sum_append, List.map_singleton, List.sum_singleton, Call.size]
    omega

theorem PleCalls.size {small : Nat → Nat → Bool} {m n : Nat} {l : List Call} (h : PleCalls small m n l) : (l.map Call.size).sum ≤ m * n * n := by
  induction h with
  | base h => simp [Call.size]
  | @step m n r l1 l2 hb h1 h2 _ _ i1 i2 =>
    obtain ⟨-, -, h3⟩ := pleSplit_spec (n := n) (by omega)
    generalize pleSplit n = n1 at *
    have i3 := schurCalls_size (m := m) (n := n) (n1 := n1) (r := r)
    obtain ⟨k, rfl⟩ : ∃ k, n = n1 + k := ⟨n - n1, by omega⟩
    obtain ⟨q, rfl⟩ : ∃ q, m = r + q := ⟨m - r, by omega⟩
    rw [Nat.add_sub_cancel_left] at i2 i3
    rw [Nat.add_sub_cancel_left] at i2 i3
    rw [List.map_append, List.map_append, List.sum_append, List.sum_append]
    have e1 : (r + q) * (n1 + k) * (n1 + k) = (r + q) * n1 * n1 + 2 * ((r + q) * n1 * k) + q * k * k + r * k * k := by ring
    have e2 : r * r * k + q * r * k = (r + q) * r * k := by ring
    have e3 : (r + q) * r * k ≤ (r + q) * n1 * k := Nat.mul_le_mul_right _ (Nat.mul_le_mul_left _ h2)
    have := Nat.zero_le (r * k * k)
    omega

/-- what is decomposed or solved directly -/
theorem PleCalls.direct {small : Nat → Nat → Bool} {m n : Nat} {l : List Call} (h : PleCalls small m n l) :
    (∀ m' n', .ple m' n' ∈ l → n' ≤ 64 ∨ small m' n' = true) ∧ ∀ n' m', .solve n' m' ∈ l → n' ≤ 512 ∨ m' ≤ 512 := by
  induction h with
  | base h =>
    refine ⟨fun m' n' hh => ?_, fun n' m' hh => ?_⟩
    · rw [List.mem_singleton] at hh
      cases hh
      exact h
    · rw [List.mem_singleton] at hh
      cases hh
  | @step m n r l1 l2 hb h1 h2 _ _ i1 i2 =>
    have key : ∀ c ∈ schurCalls m n (pleSplit n) r, (∀ m' n', c ≠ .ple m' n') ∧ ∀ n' m', c = .solve n' m' → n' ≤ 512 ∨ m' ≤ 512 := by
      intro c hc
      unfold schurCalls at hc
      split_ifs at hc with h0
      · exact absurd hc List.not_mem_nil
      rw [List.mem_append, List.mem_singleton] at hc
      rcases hc with hc | rfl
      · refine ⟨fun m' n' e => ?_, fun n' m' e => ?_⟩
        · subst e
          exact trsmCalls_noPle _ _ _ _ _ hc
        · have := trsmCalls_direct _ _ _ _ _ _ hc n' m' e
          unfold mzedTrsmCutoff at this
          omega
      · exact ⟨fun _ _ => by simp, fun _ _ e => by cases e⟩
    refine ⟨fun m' n' hh => ?_, fun n' m' hh => ?_⟩
    · rw [List.mem_append, List.mem_append] at hh
      rcases hh with (hh | hh) | hh
      · exact i1.1 _ _ hh
      · exact absurd rfl ((key _ hh).1 m' n')
      · exact i2.1 _ _ hh
    · rw [List.mem_append, List.mem_append] at hh
      rcases hh with (hh | hh) | hh
      · exact i1.2 _ _ hh
      · exact (key _ hh).2 _ _ rfl
      · exact i2.2 _ _ hh

/-! ### The cost -/

theorem pleSplit_half {n j : Nat} (h1 : 64 < n) (h2 : n ≤ 64 * 2 ^ (j + 1)) : pleSplit n ≤ 64 * 2 ^ j ∧ n - pleSplit n ≤ 64 * 2 ^ j := by
  have : 2 ^ (j + 1) = 2 * 2 ^ j := by ring
  unfold pleSplit
  omega

theorem halves_step (g : Nat → ℝ) (q : Nat) :
    ∑ i ∈ Finset.range (q + 1), (2 : ℝ) ^ (q + 1 - 1 - i) * g i = 2 * ∑ i ∈ Finset.range q, 2 ^ (q - 1 - i) * g i + g q := by
  rw [Finset.sum_range_succ, Finset.mul_sum, show q + 1 - 1 - q = 0 by omega, pow_zero, one_mul]
  refine congrArg (· + g q) (Finset.sum_congr rfl fun i hi => ?_)
  have hi' := Finset.mem_range.1 hi
  rw [show q + 1 - 1 - i = (q - 1 - i) + 1 by omega, pow_succ]
  ring

theorem halves_sum {p : ℝ} (hp : 1 < p) : ∀ j : Nat,
    ∑ i ∈ Finset.range j, (2 : ℝ) ^ (j - 1 - i) * (64 * (2 : ℝ) ^ i) ^ p ≤ (64 * (2 : ℝ) ^ j) ^ p / ((2 : ℝ) ^ p - 2)
  | 0 => by
    have h2 : (2 : ℝ) < (2 : ℝ) ^ p := by
      have := Real.rpow_lt_rpow_of_exponent_lt (x := 2) (by norm_num) hp
      rwa [Real.rpow_one] at this
    rw [Finset.range_zero, Finset.sum_empty]
    exact div_nonneg (Real.rpow_nonneg (by positivity) _) (by linarith)
  | j + 1 => by
    have ih := halves_sum hp j
    have h2 : (2 : ℝ) < (2 : ℝ) ^ p := by
      have := Real.rpow_lt_rpow_of_exponent_lt (x := 2) (by norm_num) hp
      rwa [Real.rpow_one] at this
    rw [halves_step]
    have e : (64 * (2 : ℝ) ^ (j + 1)) ^ p = (2 : ℝ) ^ p * (64 * (2 : ℝ) ^ j) ^ p := by
      rw [← Real.mul_rpow (by norm_num) (by positivity)]
      congr 1
      ring
    rw [e]
    set t := (2 : ℝ) ^ p
    set y := (64 * (2 : ℝ) ^ j) ^ p
    have ht : 0 < t - 2 := by linarith
    have e3 : t * y / (t - 2) = 2 * (y / (t - 2)) + y := by
      field_simp
      ring
    rw [e3]
    linarith

section
variable {cost : Call → ℝ} {a b ω : ℝ}

/-- the cost of one Schur complement -/
theorem schurCalls_cost (ha : 0 ≤ a) (hb : 0 ≤ b) (hω : 2 < ω) (hω3 : ω ≤ 3) (hsolve : ∀ n m, cost (.solve n m) ≤ a * (n * n * m : Nat)) (hmul : FastMul cost b ω)
    {m n n1 r X N : Nat} (hm : m ≤ N) (hr : r ≤ X) (hk : n - n1 ≤ X) (hXN : X ≤ N) :
    callsCost cost (schurCalls m n n1 r) ≤ (16 * b / ((2 : ℝ) ^ (ω - 1) - 2) + b) * N * (X : ℝ) ^ (ω - 1) + (512 * a + 129032 * b) * (X : ℝ) ^ (2 : ℝ) := by
  have ht : (2 : ℝ) < (2 : ℝ) ^ (ω - 1) := by
    have := Real.rpow_lt_rpow_of_exponent_lt (x := 2) (show (1 : ℝ) < 2 by norm_num) (show 1 < ω - 1 by linarith)
    rwa [Real.rpow_one] at this
  have hc : 0 ≤ 16 * b / ((2 : ℝ) ^ (ω - 1) - 2) := div_nonneg (by linarith) (by linarith)
  have hX : (X : ℝ) ≤ N := Nat.cast_le.2 hXN
  have hXp : 0 ≤ (X : ℝ) ^ (ω - 1) := Real.rpow_nonneg (Nat.cast_nonneg _) _
  have hN : (0 : ℝ) ≤ N := Nat.cast_nonneg _
  unfold schurCalls
  split_ifs with h0
  · rw [callsCost_nil]
    have h1 := mul_nonneg (mul_nonneg (add_nonneg hc hb) hN) hXp
    have h2 := mul_nonneg (show 0 ≤ 512 * a + 129032 * b by linarith) (Real.rpow_nonneg (Nat.cast_nonneg X) 2)
    linarith
  · rw [callsCost_append, callsCost_one]
    have h1 := trsmCalls_fast (cost := cost) false (cutoff := mzedTrsmCutoff) (by decide) (n := r) (m := n - n1) (N := X) (by omega) hr hk ha hb hω hω3
      (fun k => hsolve k _) hmul (r + 1)
    have h2 := hmul (m - r) r (n - n1) X N hXN hr ((min_le_right _ _).trans hk) (max_le (by omega) (hk.trans hXN))
    have e : (X : ℝ) ^ ω ≤ N * (X : ℝ) ^ (ω - 1) := by
      have : (X : ℝ) ^ ω = X * (X : ℝ) ^ (ω - 1) := by
        rw [← Real.rpow_one_add' (Nat.cast_nonneg _) (by linarith)]
        congr 1
        ring
      rw [this]
      exact mul_le_mul_of_nonneg_right hX hXp
    have h3 := mul_le_mul_of_nonneg_left e hc
    have e2 : ((mzedTrsmCutoff : Int) : ℝ) = 512 := by norm_num [mzedTrsmCutoff]
    rw [e2] at h1
    rw [Real.rpow_two]
    have e3 : (16 * b / ((2 : ℝ) ^ (ω - 1) - 2) + b) * N * (X : ℝ) ^ (ω - 1) = 16 * b / ((2 : ℝ) ^ (ω - 1) - 2) * (N * (X : ℝ) ^ (ω - 1)) + b * N * (X : ℝ) ^ (ω - 1) := by ring
    rw [e3]
    linarith

theorem PleCalls.halves {small : Nat → Nat → Bool} {cut N : Nat} (hsmall : ∀ m n, m ≤ N → n ≤ N → small m n = true → m * n ≤ cut) (ha : 0 ≤ a) (hb : 0 ≤ b) (hω : 2 < ω) (hω3 : ω ≤ 3)
    (hple : ∀ m n, cost (.ple m n) ≤ a * (m * n * n : Nat)) (hsolve : ∀ n m, cost (.solve n m) ≤ a * (n * n * m : Nat)) (hmul : FastMul cost b ω)
    {m n : Nat} {l : List Call} (h : PleCalls small m n l) : 1 ≤ N → m ≤ N → n ≤ N → ∀ j, n ≤ 64 * 2 ^ j →
    callsCost cost l ≤ a * (64 + cut) * N * n + ∑ i ∈ Finset.range j, 2 ^ (j - 1 - i) *
      ((16 * b / ((2 : ℝ) ^ (ω - 1) - 2) + b) * N * (64 * (2 : ℝ) ^ i) ^ (ω - 1) + (512 * a + 129032 * b) * (64 * (2 : ℝ) ^ i) ^ (2 : ℝ)) := by
  have ht : (2 : ℝ) < (2 : ℝ) ^ (ω - 1) := by
    have := Real.rpow_lt_rpow_of_exponent_lt (x := 2) (show (1 : ℝ) < 2 by norm_num) (show 1 < ω - 1 by linarith)
    rwa [Real.rpow_one] at this
  have hc : 0 ≤ 16 * b / ((2 : ℝ) ^ (ω - 1) - 2) := div_nonneg (by linarith) (by linarith)
  have hg0 : ∀ i : Nat, 0 ≤ (16 * b / ((2 : ℝ) ^ (ω - 1) - 2) + b) * N * (64 * (2 : ℝ) ^ i) ^ (ω - 1) + (512 * a + 129032 * b) * (64 * (2 : ℝ) ^ i) ^ (2 : ℝ) := fun i =>
    add_nonneg (mul_nonneg (mul_nonneg (add_nonneg hc hb) (Nat.cast_nonneg _)) (Real.rpow_nonneg (by positivity) _))
      (mul_nonneg (by linarith) (Real.rpow_nonneg (by positivity) _))
  induction h with
  | @base m n h =>
    intro hN hm hn j hj
    rw [callsCost_one]
    have h0 := Finset.sum_nonneg fun i (_ : i ∈ Finset.range j) => mul_nonneg (show (0 : ℝ) ≤ 2 ^ (j - 1 - i) by positivity) (hg0 i)
    have h1 : m * n ≤ (64 + cut) * N := by
      rcases h with h | h
      · calc m * n ≤ N * 64 := Nat.mul_le_mul hm h
          _ ≤ (64 + cut) * N := by rw [Nat.mul_comm]; exact Nat.mul_le_mul_right _ (by omega)
      · calc m * n ≤ cut := hsmall _ _ hm hn h
          _ ≤ (64 + cut) * 1 := by omega
          _ ≤ (64 + cut) * N := Nat.mul_le_mul_left _ hN
    have h2 : ((m * n * n : Nat) : ℝ) ≤ (((64 + cut) * N * n : Nat) : ℝ) := Nat.cast_le.2 (Nat.mul_le_mul_right _ h1)
    have h3 := mul_le_mul_of_nonneg_left h2 ha
    have h4 := hple m n
    push_cast at h3 h4
    linarith
  | @step m n r l1 l2 hbs h1 h2 _ _ i1 i2 =>
    intro hN hm hn j hj
    obtain ⟨q, rfl⟩ : ∃ q, j = q + 1 := by
      cases j with
      | zero => rw [pow_zero] at hj; omega
      | succ q => exact ⟨q, rfl⟩
    obtain ⟨-, -, h3⟩ := pleSplit_spec (n := n) (by omega)
    obtain ⟨c1, c2⟩ := pleSplit_half (by omega) hj
    generalize pleSplit n = n1 at *
    have k1 := i1 hN hm (by omega) q c1
    have k2 := i2 hN (by omega) (by omega) q c2
    have k3 := schurCalls_cost (cost := cost) ha hb hω hω3 hsolve hmul (m := m) (n := n) (n1 := n1) (r := r) (X := min (64 * 2 ^ q) N) (N := N) hm
      (le_min (h2.trans c1) (by omega)) (le_min c2 (by omega)) (min_le_right _ _)
    have hX : ((min (64 * 2 ^ q) N : Nat) : ℝ) ≤ 64 * (2 : ℝ) ^ q := by
      have h : ((min (64 * 2 ^ q) N : Nat) : ℝ) ≤ ((64 * 2 ^ q : Nat) : ℝ) := Nat.cast_le.2 (min_le_left _ _)
      push_cast at h ⊢
      exact h
    have m1 := mul_le_mul_of_nonneg_left (Real.rpow_le_rpow (Nat.cast_nonneg _) hX (show 0 ≤ ω - 1 by linarith))
      (mul_nonneg (add_nonneg hc hb) (Nat.cast_nonneg (α := ℝ) N))
    have m2 := mul_le_mul_of_nonneg_left (Real.rpow_le_rpow (Nat.cast_nonneg _) hX (show (0 : ℝ) ≤ 2 by norm_num)) (show 0 ≤ 512 * a + 129032 * b by linarith)
    rw [callsCost_append, callsCost_append, halves_step]
    have e : (n : ℝ) = (n1 : ℝ) + ((n - n1 : Nat) : ℝ) := by
      rw [← Nat.cast_add]
      congr 1
      omega
    have e2 : a * (64 + (cut : ℝ)) * N * n = a * (64 + cut) * N * n1 + a * (64 + cut) * N * ((n - n1 : Nat) : ℝ) := by rw [e]; ring
    rw [e2]
    linarith

/-- decomposing costs as much as multiplying -/
theorem PleCalls.fast {small : Nat → Nat → Bool} {cut N : Nat} (hsmall : ∀ m n, m ≤ N → n ≤ N → small m n = true → m * n ≤ cut) (ha : 0 ≤ a) (hb : 0 ≤ b) (hω : 2 < ω) (hω3 : ω ≤ 3)
    (hple : ∀ m n, cost (.ple m n) ≤ a * (m * n * n : Nat)) (hsolve : ∀ n m, cost (.solve n m) ≤ a * (n * n * m : Nat)) (hmul : FastMul cost b ω)
    {m n : Nat} {l : List Call} (h : PleCalls small m n l) (hN : 1 ≤ N) (hm : m ≤ N) (hn : n ≤ N) :
    callsCost cost l ≤ 4 * b * (14 + (2 : ℝ) ^ (ω - 1)) / ((2 : ℝ) ^ (ω - 1) - 2) ^ 2 * (N : ℝ) ^ ω + (a * (1088 + cut) + 258064 * b) * (N : ℝ) ^ 2 := by
  have ht : (2 : ℝ) < (2 : ℝ) ^ (ω - 1) := by
    have := Real.rpow_lt_rpow_of_exponent_lt (x := 2) (show (1 : ℝ) < 2 by norm_num) (show 1 < ω - 1 by linarith)
    rwa [Real.rpow_one] at this
  have hNr : (1 : ℝ) ≤ N := by exact_mod_cast hN
  -- the number of halvings
  obtain ⟨j, hj, hj2⟩ : ∃ j, n ≤ 64 * 2 ^ j ∧ (j = 0 ∨ 64 * 2 ^ j ≤ 2 * n) := by
    have hex : ∃ j, n ≤ 64 * 2 ^ j := ⟨n, by have := (Nat.lt_two_pow_self (n := n)); omega⟩
    refine ⟨Nat.find hex, Nat.find_spec hex, ?_⟩
    by_cases h0 : Nat.find hex = 0
    · exact Or.inl h0
    · right
      have := Nat.find_min hex (show Nat.find hex - 1 < Nat.find hex by omega)
      obtain ⟨q, hq⟩ : ∃ q, Nat.find hex = q + 1 := ⟨Nat.find hex - 1, by omega⟩
      rw [hq] at this ⊢
      rw [Nat.add_sub_cancel] at this
      rw [pow_succ]
      omega
  have hmain := h.halves (cost := cost) (N := N) hsmall ha hb hω hω3 hple hsolve hmul hN hm hn j hj
  set t := (2 : ℝ) ^ (ω - 1) with hte
  set c := 16 * b / (t - 2) + b with hce
  have hd : 0 < t - 2 := by linarith
  have hc : 0 ≤ c := add_nonneg (div_nonneg (by linarith) hd.le) hb
  have hab : 0 ≤ 512 * a + 129032 * b := by linarith
  have hsum : ∑ i ∈ Finset.range j, (2 : ℝ) ^ (j - 1 - i) * (c * N * (64 * (2 : ℝ) ^ i) ^ (ω - 1) + (512 * a + 129032 * b) * (64 * (2 : ℝ) ^ i) ^ (2 : ℝ)) =
      c * N * ∑ i ∈ Finset.range j, (2 : ℝ) ^ (j - 1 - i) * (64 * (2 : ℝ) ^ i) ^ (ω - 1) +
      (512 * a + 129032 * b) * ∑ i ∈ Finset.range j, (2 : ℝ) ^ (j - 1 - i) * (64 * (2 : ℝ) ^ i) ^ (2 : ℝ) := by
    rw [Finset.mul_sum, Finset.mul_sum, ← Finset.sum_add_distrib]
    exact Finset.sum_congr rfl fun i _ => by ring
  rw [hsum] at hmain
  have hpow : ∀ p : ℝ, 1 < p → p ≤ 2 → ∑ i ∈ Finset.range j, (2 : ℝ) ^ (j - 1 - i) * (64 * (2 : ℝ) ^ i) ^ p ≤ 4 * (N : ℝ) ^ p / ((2 : ℝ) ^ p - 2) := by
    intro p hp1 hp2
    have h2 : (2 : ℝ) < (2 : ℝ) ^ p := by
      have := Real.rpow_lt_rpow_of_exponent_lt (x := 2) (by norm_num) hp1
      rwa [Real.rpow_one] at this
    rcases hj2 with rfl | hj2
    · rw [Finset.range_zero, Finset.sum_empty]
      exact div_nonneg (mul_nonneg (by norm_num) (Real.rpow_nonneg (by linarith) _)) (by linarith)
    · refine (halves_sum hp1 j).trans (div_le_div_of_nonneg_right ?_ (by linarith))
      have h64 : (64 : ℝ) * 2 ^ j ≤ 2 * N := by
        have h5 : ((64 * 2 ^ j : Nat) : ℝ) ≤ ((2 * N : Nat) : ℝ) := Nat.cast_le.2 (by omega)
        push_cast at h5
        exact h5
      have h1 := Real.rpow_le_rpow (by positivity) h64 (show 0 ≤ p by linarith)
      rw [Real.mul_rpow (by norm_num) (Nat.cast_nonneg N)] at h1
      have h4 : (2 : ℝ) ^ p ≤ 4 := by
        have := Real.rpow_le_rpow_of_exponent_le (x := 2) (by norm_num) hp2
        rw [Real.rpow_two] at this
        linarith
      exact h1.trans (mul_le_mul_of_nonneg_right h4 (Real.rpow_nonneg (Nat.cast_nonneg N) _))
  have s1 := mul_le_mul_of_nonneg_left (hpow (ω - 1) (by linarith) (by linarith)) (mul_nonneg hc (show (0 : ℝ) ≤ N by linarith))
  have s2 := mul_le_mul_of_nonneg_left (hpow 2 (by norm_num) le_rfl) hab
  have hNN : (N : ℝ) * (N : ℝ) ^ (ω - 1) = (N : ℝ) ^ ω := by
    rw [← Real.rpow_one_add' (by linarith) (by linarith)]
    congr 1
    ring
  have e1 : c * N * (4 * (N : ℝ) ^ (ω - 1) / (t - 2)) = 4 * b * (14 + t) / (t - 2) ^ 2 * (N : ℝ) ^ ω := by
    rw [← hNN, hce]
    field_simp
    ring
  have e2 : (512 * a + 129032 * b) * (4 * (N : ℝ) ^ (2 : ℝ) / ((2 : ℝ) ^ (2 : ℝ) - 2)) = (1024 * a + 258064 * b) * (N : ℝ) ^ 2 := by
    rw [Real.rpow_two, Real.rpow_two]
    ring
  rw [← hte, e1] at s1
  rw [e2] at s2
  have e3 : a * (64 + (cut : ℝ)) * N * n ≤ a * (64 + cut) * (N : ℝ) ^ 2 := by
    have h1 : (n : ℝ) ≤ N := Nat.cast_le.2 hn
    have h2 : 0 ≤ a * (64 + (cut : ℝ)) * N := mul_nonneg (mul_nonneg ha (by positivity)) (by linarith)
    have := mul_le_mul_of_nonneg_left h1 h2
    linarith [this, (by ring : a * (64 + (cut : ℝ)) * N * N = a * (64 + cut) * (N : ℝ) ^ 2)]
  linarith [(by ring : (a * (1088 + (cut : ℝ)) + 258064 * b) * (N : ℝ) ^ 2 = a * (64 + cut) * (N : ℝ) ^ 2 + (1024 * a + 258064 * b) * (N : ℝ) ^ 2)]

end

/-! ### Elimination -/

/-- the systems solved after the decomposition: `n` columns, rank `r` -/
def echCalls (n r : Nat) : List Call :=
  if 64 * (r / 64) = r ∧ r ≠ n then trsmCalls true mzedTrsmCutoff (r + 1) r (n - r)
  else if 64 * (r / 64) ≠ r ∧ r ≠ n then
    if n > 64 * (r / 64) + 64 then trsmCalls true mzedTrsmCutoff (r + 1) r (64 * (r / 64) + 64 - 64 * (r / 64)) ++
      trsmCalls true mzedTrsmCutoff (r + 1) r (n - (64 * (r / 64) + 64))
    else trsmCalls true mzedTrsmCutoff (r + 1) r (n - 64 * (r / 64))
  else []

theorem map_bind_logs {τ : Type} (o : Option τ) (l : List Call) (g : τ → Option τ) (l' : List Call) :
    ((o.map fun y => (y, l)).bind fun p => (g p.1).map fun A => (A, l' ++ p.2)) = (o.bind g).map fun A => (A, l' ++ l) := by
  cases o <;> rfl

theorem map_bind_logs' {τ : Type} (o : Option τ) (l : List Call) (g : τ → Option τ) :
    ((o.map fun y => (y, l)).bind fun p => (g p.1).map fun A => (A, p.2)) = (o.bind g).map fun A => (A, l) := by
  cases o <;> rfl

theorem echPleSolveL_eq (cb : Codebook) (A : Slice) (r : Nat) : echPleSolveL? cb A r = (echPleSolve? cb A r).map fun y => (y, echCalls A.ncols r) := by
  unfold echPleSolveL? echPleSolve? echCalls
  dsimp only
  by_cases h1 : 64 * (r / 64) = r ∧ r ≠ A.ncols
  · rw [if_pos h1, if_pos h1, if_pos h1,
      onSWindowL_eq (l := trsmCalls true mzedTrsmCutoff (r + 1) r (A.ncols - r)) (f := fun B => mzdSliceTrsmUpperLeft? cb _ B mzedTrsmCutoff) _ _ _ _ _
        (sliceUpperL_eq cb _ _ _ (by rfl))]
    exact map_bind_logs' _ _ (fun A => onSWindow A 0 0 r r fun U => some (mzdSliceSetUi U 1#64))
  rw [if_neg h1, if_neg h1, if_neg h1]
  by_cases h2 : 64 * (r / 64) ≠ r ∧ r ≠ A.ncols
  · rw [if_pos h2, if_pos h2, if_pos h2]
    by_cases h3 : A.ncols > 64 * (r / 64) + 64
    · rw [if_pos h3, if_pos h3, if_pos h3, sliceUpperL_eq cb _ (mzdSliceSubmatrix A 0 (64 * (r / 64)) r (64 * (r / 64) + 64)) _ (by rfl)]
      cases mzdSliceTrsmUpperLeft? cb _ (mzdSliceSubmatrix A 0 (64 * (r / 64)) r (64 * (r / 64) + 64)) mzedTrsmCutoff with
      | none => rfl
      | some B0 =>
        rw [Option.map_some, Option.bind_some, Option.bind_some,
          onSWindowL_eq (l := trsmCalls true mzedTrsmCutoff (r + 1) r (A.ncols - (64 * (r / 64) + 64))) (f := fun B => mzdSliceTrsmUpperLeft? cb _ B mzedTrsmCutoff) _ _ _ _ _
            (sliceUpperL_eq cb _ _ _ (by rfl))]
        exact (congrArg (fun o => Option.bind o _) (map_bind_logs _ _ (fun A => onSWindow A 0 (64 * (r / 64)) r (64 * (r / 64) + 64) fun W => some (mzdSliceCopy W B0)) _)).trans
          (map_bind_logs' _ _ (fun A => onSWindow A 0 0 r r fun U => some (mzdSliceSetUi U 1#64)))
    · rw [if_neg h3, if_neg h3, if_neg h3, sliceUpperL_eq cb _ (mzdSliceSubmatrix A 0 (64 * (r / 64)) r A.ncols) _ (by rfl)]
      cases mzdSliceTrsmUpperLeft? cb _ (mzdSliceSubmatrix A 0 (64 * (r / 64)) r A.ncols) mzedTrsmCutoff with
      | none => rfl
      | some B0 =>
        rw [Option.map_some, Option.bind_some, Option.bind_some]
        exact map_bind_logs' (onSWindow _ 0 (64 * (r / 64)) r A.ncols fun W => some (mzdSliceCopy W B0)) _ (fun A => onSWindow A 0 0 r r fun U => some (mzdSliceSetUi U 1#64))
  · rw [if_neg h2, if_neg h2, if_neg h2]
    rfl

theorem echCalls_size {m n r : Nat} (h1 : r ≤ m) (h2 : r ≤ n) : ((echCalls n r).map Call.size).sum ≤ 2 * (m * n * n) := by
  have key : ∀ z, z ≤ n → ((trsmCalls true mzedTrsmCutoff (r + 1) r z).map Call.size).sum ≤ m * n * n := fun z hz =>
    (trsmCalls_size true mzedTrsmCutoff (r + 1) r z).trans (Nat.mul_le_mul (Nat.mul_le_mul h1 h2) hz)
  unfold echCalls
  split_ifs with c1 c2 c3
  · have := key (n - r) (by omega); omega
  · have k1 := key (64 * (r / 64) + 64 - 64 * (r / 64)) (by omega)
    have k2 := key (n - (64 * (r / 64) + 64)) (by omega)
    rw [List.map_append, List.sum_append]
    omega
  · have := key (n - 64 * (r / 64)) (by omega); omega
  · simp

theorem echCalls_direct {n r : Nat} : (∀ m' n', .ple m' n' ∉ echCalls n r) ∧ ∀ n' m', .solve n' m' ∈ echCalls n r → n' ≤ 512 ∨ m' ≤ 512 := by
  have key : ∀ z, (∀ m' n', .ple m' n' ∉ trsmCalls true mzedTrsmCutoff (r + 1) r z) ∧
      ∀ n' m', .solve n' m' ∈ trsmCalls true mzedTrsmCutoff (r + 1) r z → n' ≤ 512 ∨ m' ≤ 512 := fun z =>
    ⟨fun _ _ => trsmCalls_noPle _ _ _ _ _, fun n' m' h => by
      have := trsmCalls_direct _ _ _ _ _ _ h n' m' rfl
      unfold mzedTrsmCutoff at this
      omega⟩
  unfold echCalls
  split_ifs with c1 c2 c3
  · exact key _
  · refine ⟨fun m' n' h => ?_, fun n' m' h => ?_⟩
    · rcases List.mem_append.1 h with h | h
      · exact (key _).1 _ _ h
      · exact (key _).1 _ _ h
    · rcases List.mem_append.1 h with h | h
      · exact (key _).2 _ _ h
      · exact (key _).2 _ _ h
  · exact key _
  · exact ⟨fun _ _ => List.not_mem_nil, fun _ _ h => absurd h List.not_mem_nil⟩

theorem echCalls_fast {cost : Call → ℝ} {a b ω : ℝ} {N : Nat} (ha : 0 ≤ a) (hb : 0 ≤ b) (hω : 2 < ω) (hω3 : ω ≤ 3)
    (hsolve : ∀ n m, cost (.solve n m) ≤ a * (n * n * m : Nat)) (hmul : FastMul cost b ω) {n r : Nat} (hN : 1 ≤ N) (h : r ≤ n) (hn : n ≤ N) :
    callsCost cost (echCalls n r) ≤ 2 * (16 * b / ((2 : ℝ) ^ (ω - 1) - 2) * (N : ℝ) ^ ω + (a * 512 + 129032 * b) * (N : ℝ) ^ 2) := by
  have ht : (2 : ℝ) < (2 : ℝ) ^ (ω - 1) := by
    have := Real.rpow_lt_rpow_of_exponent_lt (x := 2) (show (1 : ℝ) < 2 by norm_num) (show 1 < ω - 1 by linarith)
    rwa [Real.rpow_one] at this
  have e2 : ((mzedTrsmCutoff : Int) : ℝ) = 512 := by norm_num [mzedTrsmCutoff]
  have h0 : 0 ≤ 16 * b / ((2 : ℝ) ^ (ω - 1) - 2) * (N : ℝ) ^ ω + (a * 512 + 129032 * b) * (N : ℝ) ^ 2 :=
    add_nonneg (mul_nonneg (div_nonneg (by linarith) (by linarith)) (Real.rpow_nonneg (Nat.cast_nonneg _) _)) (mul_nonneg (by linarith) (by positivity))
  have key : ∀ z, z ≤ N → callsCost cost (trsmCalls true mzedTrsmCutoff (r + 1) r z) ≤
      16 * b / ((2 : ℝ) ^ (ω - 1) - 2) * (N : ℝ) ^ ω + (a * 512 + 129032 * b) * (N : ℝ) ^ 2 := by
    intro z hz
    by_cases hr : r = 0
    · subst hr
      rw [trsmCalls_leaf _ _ (Or.inl (by decide)), callsCost_one]
      have := hsolve 0 z
      simp only [Nat.zero_mul, Nat.cast_zero, mul_zero] at this
      exact this.trans h0
    · have := trsmCalls_fast (cost := cost) true (cutoff := mzedTrsmCutoff) (by decide) (n := r) (m := z) (N := N) (by omega) (by omega) hz ha hb hω hω3
        (fun k => hsolve k _) hmul (r + 1)
      rwa [e2] at this
  unfold echCalls
  split_ifs with c1 c2 c3
  · have := key (n - r) (by omega); linarith
  · have k1 := key (64 * (r / 64) + 64 - 64 * (r / 64)) (by omega)
    have k2 := key (n - (64 * (r / 64) + 64)) (by omega)
    rw [callsCost_append]
    linarith
  · have := key (n - 64 * (r / 64)) (by omega); linarith
  · rw [callsCost_nil]; linarith

end M4rie
