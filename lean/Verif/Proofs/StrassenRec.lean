import Verif.Proofs.Strassen

/-! Strassen multiplication: remainder, base case, recursion. -/

namespace M4rie
open M4rie.Spec
variable {ff : Gf2e} [IsField ff]

/-- the base multiplication must not be given an operand without columns (if it builds tables) -/
def njOk (d m k n : Nat) : Bool := !(decide (d ≤ m) && decide (0 < k) && n == 0)

/-- what `_mzed_mul_newton_john` does -/
def NjSpec (nj : Mzed → Mzed → Mzed → Option Mzed) (ff : Gf2e) [IsField ff] : Prop :=
  ∀ C A B : Mat ff, C.nrows = A.nrows → C.ncols = B.ncols →
    nj C.pack A.pack B.pack = if njOk ff.degree A.nrows A.ncols B.ncols then some (C.addMulM A B).pack else none

theorem forN_id {σ : Type} (f : Nat → σ → σ) (s : σ) (n : Nat) (h : ∀ i s, f i s = s) : forN f n s = s := by
  induction n with
  | zero => rfl
  | succ n ih => rw [forN, ih, h]

theorem mulNj_pack {cb : Codebook} (hcb : cb.Ok ff.degree) {bs : Nat} (hbs : 16 ≤ bs) : NjSpec (mzedMulNewtonJohnAcc? cb bs) ff := by
  intro C A B h1 h2
  unfold mzedMulNewtonJohnAcc? njOk
  simp only [pack_ff, pack_nrows, pack_ncols]
  by_cases hc : ff.degree ≤ A.nrows ∧ 0 < A.ncols ∧ B.ncols = 0
  · refine (if_pos hc).trans ?_
    rw [if_neg]; simp [hc.1, hc.2]
  · refine (if_neg hc).trans ?_
    rw [if_pos (by simp only [Bool.not_eq_true', Bool.and_eq_false_iff, decide_eq_false_iff_not, beq_eq_false_iff_ne]; tauto)]
    congr 1
    have hw : degreeToW ff.degree ≤ bs := by
      have : degreeToW ff.degree ≤ 16 := by rcases okW_ff (ff := ff) with h | h | h | h <;> omega
      omega
    by_cases hB : 0 < B.ncols
    · exact mulNewtonJohnAcc_pack hcb bs hw C A B hB h2 h1
    · unfold mzedMulNewtonJohnAcc
      simp only [pack_ff, pack_nrows, pack_ncols, pack_w, pack_fid]
      by_cases hd : ff.degree > A.nrows
      · exact (if_pos hd).trans (mulNaiveAcc_pack C A B)
      · refine (if_neg hd).trans ?_
        have hk : A.ncols = 0 := by omega
        have hg : ∀ (g c : Nat) s, njGiant cb A.pack B.pack g c 0 s = s := fun g c s => rfl
        simp only [hk, Nat.zero_div, Nat.zero_mod]
        simp only [hg, ne_eq, not_true, if_false]
        rw [forN_id _ _ _ (fun _ _ => rfl)]
        refine congrArg Mat.pack ?_
        refine Mat.ext rfl rfl rfl ?_
        funext i j
        simp [Mat.addMulM, hk]

namespace Mat
theorem put_empty_cols (S : Mat ff) (a b : Nat) {m n : Nat} (M : Matrix (Fin m) (Fin n) (Elem ff)) (h : n = 0) : S.put a b M = S := by
  refine Mat.ext rfl rfl rfl ?_
  funext i j
  rw [put_out _ _ (by omega)]
theorem put_empty_rows (S : Mat ff) (a b : Nat) {m n : Nat} (M : Matrix (Fin m) (Fin n) (Elem ff)) (h : m = 0) : S.put a b M = S := by
  refine Mat.ext rfl rfl rfl ?_
  funext i j
  rw [put_out _ _ (by omega)]
theorem put_blk (S : Mat ff) (a b m n : Nat) : S.put a b (S.blk a b m n) = S := by
  refine Mat.ext rfl rfl rfl ?_
  funext i j
  by_cases h : (a ≤ i ∧ i < a + m) ∧ (b ≤ j ∧ j < b + n)
  · rw [put_in _ _ h]
    simp [blk, Nat.add_sub_cancel' h.1.1, Nat.add_sub_cancel' h.2.1]
  · rw [put_out _ _ h]
end Mat

/-- one call on a window -/
theorem onWindow_nj {nj : Mzed → Mzed → Mzed → Option Mzed} (hnj : NjSpec nj ff) (clear : Bool) (S X Y : Mat ff) {lr lc hr hc m k n : Nat}
    (ha : degreeToW ff.degree * lc % 64 = 0) (h1 : hr - lr = m) (h2 : hc - lc = n) (h3 : X.nrows = m) (h4 : X.ncols = k) (h5 : Y.ncols = n) :
    onWindow S.pack lr lc hr hc (fun W => nj (if clear then mzedSetUi W 0#64 else W) X.pack Y.pack) =
      if njOk ff.degree m k n then
        some (S.put lr lc ((if clear then 0 else S.blk lr lc m n) + X.blk 0 0 m k * Y.blk 0 0 k n)).pack else none := by
  have hz : (0 : Elem ff).1 = 0#64 := rfl
  by_cases hok : njOk ff.degree m k n
  · rw [if_pos hok]
    refine onWindow_pack ha ?_
    cases clear with
    | false =>
      simp only [if_false, Bool.false_eq_true]
      rw [hnj _ _ _ (h1.trans h3.symm) (h2.trans h5.symm), h3, h4, h5, if_pos hok, Mat.addMulM_eq_put _ _ _ h1 h2 h4, Mat.blk_window]
      rfl
    | true =>
      simp only [if_true]
      rw [← hz, setUi_pack, Mat.scalar_zero_eq_put _ h1 h2]
      rw [hnj _ _ _ (by simpa using h1.trans h3.symm) (by simpa using h2.trans h5.symm), h3, h4, h5, if_pos hok,
        Mat.addMulM_eq_put _ _ _ (by simpa using h1) (by simpa using h2) h4, Mat.blk_put_self, Mat.put_put]
  · rw [if_neg hok]
    unfold onWindow
    rw [window_pack _ _ _ _ _ ha]
    cases clear with
    | false =>
      simp only [if_false, Bool.false_eq_true]
      rw [hnj _ _ _ (h1.trans h3.symm) (h2.trans h5.symm), h3, h4, h5, if_neg hok]
      rfl
    | true =>
      simp only [if_true]
      rw [← hz, setUi_pack, Mat.scalar_zero_eq_put _ h1 h2]
      rw [hnj _ _ _ (by simpa using h1.trans h3.symm) (by simpa using h2.trans h5.symm), h3, h4, h5, if_neg hok]
      rfl

/-- does the remainder succeed -/
def restOk (d m k n m2 k2 n2 : Nat) : Bool :=
  (decide (m ≤ m2) || njOk d (m - m2) k n2) && (decide (k ≤ k2) || njOk d m2 (k - k2) n2)

/-- the result of the remainder -/
noncomputable def restMat (clear : Bool) (S A B : Mat ff) (m k n m2 k2 n2 : Nat) : Mat ff :=
  let S1 := S.put 0 n2 ((if clear then 0 else S.blk 0 n2 m (n - n2)) + A.blk 0 0 m k * B.blk 0 n2 k (n - n2))
  let S2 := S1.put m2 0 ((if clear then 0 else S1.blk m2 0 (m - m2) n2) + A.blk m2 0 (m - m2) k * B.blk 0 0 k n2)
  S2.put 0 0 (S2.blk 0 0 m2 n2 + A.blk 0 k2 m2 (k - k2) * B.blk k2 0 (k - k2) n2)

theorem strassenRest_pack {nj : Mzed → Mzed → Mzed → Option Mzed} (hnj : NjSpec nj ff) (clear : Bool) (S A B : Mat ff) {m k n m2 k2 n2 : Nat}
    (hm : A.nrows = m) (hk : A.ncols = k)
    (hn2 : degreeToW ff.degree * n2 % 64 = 0) (hk2 : degreeToW ff.degree * k2 % 64 = 0) :
    strassenRest nj clear S.pack A.pack B.pack m k n m2 k2 n2 =
      if restOk ff.degree m k n m2 k2 n2 then
        some (restMat clear S A B m k n m2 k2 n2).pack else none := by
  have h0 : degreeToW ff.degree * 0 % 64 = 0 := by simp
  unfold strassenRest
  simp only
  rw [window_pack _ _ _ _ _ hn2, window_pack _ _ _ _ _ h0, window_pack _ _ _ _ _ h0, window_pack _ _ _ _ _ hk2, window_pack _ _ _ _ _ h0]
  have e1 : (if n > n2 then onWindow S.pack 0 n2 m n fun W => nj (if clear then mzedSetUi W 0#64 else W) A.pack (B.window 0 n2 k n).pack else some S.pack)
      = some (S.put 0 n2 ((if clear then 0 else S.blk 0 n2 m (n - n2)) + A.blk 0 0 m k * B.blk 0 n2 k (n - n2))).pack := by
    by_cases h : n > n2
    · refine (if_pos h).trans ?_
      rw [onWindow_nj hnj clear S A (B.window 0 n2 k n) hn2 (Nat.sub_zero m) rfl hm hk rfl, if_pos (by
        unfold njOk
        have : n - n2 ≠ 0 := by omega
        simp [this]), Mat.blk_window]
      simp
    · refine (if_neg h).trans ?_
      rw [Mat.put_empty_cols _ _ _ _ (by omega)]
  rw [e1, Option.bind_some]
  unfold restMat
  simp only
  generalize S.put 0 n2 ((if clear then 0 else S.blk 0 n2 m (n - n2)) + A.blk 0 0 m k * B.blk 0 n2 k (n - n2)) = S1
  have e2 : (if m > m2 then onWindow S1.pack m2 0 m n2 fun W => nj (if clear then mzedSetUi W 0#64 else W) (A.window m2 0 m k).pack (B.window 0 0 k n2).pack
        else some S1.pack)
      = if (decide (m ≤ m2) || njOk ff.degree (m - m2) k n2) then
          some (S1.put m2 0 ((if clear then 0 else S1.blk m2 0 (m - m2) n2) + A.blk m2 0 (m - m2) k * B.blk 0 0 k n2)).pack else none := by
    by_cases h : m > m2
    · refine (if_pos h).trans ?_
      rw [onWindow_nj hnj clear S1 (A.window m2 0 m k) (B.window 0 0 k n2) h0 (k := k) rfl rfl rfl rfl rfl, Mat.blk_window, Mat.blk_window]
      have : decide (m ≤ m2) = false := by simpa using h
      rw [this, Bool.false_or]
      simp
    · refine (if_neg h).trans ?_
      rw [if_pos (by simp; omega), Mat.put_empty_rows _ _ _ _ (by omega)]
  rw [e2]
  unfold restOk
  by_cases hc : (decide (m ≤ m2) || njOk ff.degree (m - m2) k n2)
  · rw [if_pos hc, Option.bind_some, hc, Bool.true_and]
    generalize S1.put m2 0 ((if clear then 0 else S1.blk m2 0 (m - m2) n2) + A.blk m2 0 (m - m2) k * B.blk 0 0 k n2) = S2
    by_cases h : k > k2
    · refine (if_pos h).trans ?_
      have := onWindow_nj hnj false S2 (A.window 0 k2 m2 k) (B.window k2 0 k n2) h0 (hr := m2) (hc := n2) (k := k - k2) (Nat.sub_zero _) (Nat.sub_zero _) (Nat.sub_zero _) rfl rfl
      simp only [if_false, Bool.false_eq_true] at this
      rw [this, Mat.blk_window, Mat.blk_window]
      have : decide (k ≤ k2) = false := by simpa using h
      rw [this, Bool.false_or]
      simp
    · refine (if_neg h).trans ?_
      rw [if_pos (by simp; omega)]
      have : A.blk 0 k2 m2 (k - k2) * B.blk k2 0 (k - k2) n2 = 0 := by
        ext i j
        rw [Matrix.mul_apply]
        have hz : k - k2 = 0 := by omega
        rw [Matrix.zero_apply]
        refine Finset.sum_eq_zero fun x _ => ?_
        exact absurd x.2 (by omega)
      rw [this, add_zero, Mat.put_blk]
  · rw [if_neg hc, Option.bind_none]
    rw [if_neg]
    simp only [Bool.not_eq_true] at hc
    simp [hc]

theorem blk_mul_apply (A B : Mat ff) (a b c d : Nat) {m k n : Nat} (i j : Nat) (hi : i < m) (hj : j < n) :
    (A.blk a b m k * B.blk c d k n) ⟨i, hi⟩ ⟨j, hj⟩ = ∑ t ∈ Finset.range k, A.e (a + i) (b + t) * B.e (c + t) (d + j) := by
  rw [Matrix.mul_apply, Finset.sum_range]; rfl

theorem restMat_mul (C A B : Mat ff) {m k n m2 k2 n2 : Nat} (hm : m2 ≤ m) (hk : k2 ≤ k) (hn : n2 ≤ n) :
    restMat true (C.put 0 0 (A.blk 0 0 m2 k2 * B.blk 0 0 k2 n2)) A B m k n m2 k2 n2 = C.put 0 0 (A.blk 0 0 m k * B.blk 0 0 k n) := by
  refine Mat.ext rfl rfl rfl ?_
  funext i j
  unfold restMat
  simp only [if_true, zero_add]
  by_cases h : i < m ∧ j < n
  · rw [Mat.put_in (i := i) (j := j) C _ (by omega), blk_mul_apply]
    by_cases hj : j < n2
    · by_cases hi : i < m2
      · rw [Mat.put_in _ _ (by omega), Matrix.add_apply, blk_mul_apply]
        simp only [Mat.blk, Matrix.of_apply, Nat.zero_add, Nat.sub_zero]
        rw [Mat.put_out _ _ (by omega), Mat.put_out _ _ (by omega), Mat.put_in _ _ (by omega)]
        have := blk_mul_apply A B 0 0 0 0 (m := m2) (k := k2) (n := n2) i j hi hj
        simp only [Mat.blk, Nat.zero_add] at this
        simp only [Nat.zero_add, Nat.sub_zero]
        rw [this]
        conv_rhs => rw [← Nat.add_sub_cancel' hk, Finset.sum_range_add]
      · rw [Mat.put_out _ _ (by omega), Mat.put_in _ _ (by omega), blk_mul_apply]
        simp [Nat.add_sub_cancel' (Nat.le_of_not_lt hi)]
    · rw [Mat.put_out _ _ (by omega), Mat.put_out _ _ (by omega), Mat.put_in _ _ (by omega), blk_mul_apply]
      simp [Nat.add_sub_cancel' (Nat.le_of_not_lt hj)]
  · repeat rw [Mat.put_out _ _ (by omega)]

theorem restMat_addmul (C A B : Mat ff) {m k n m2 k2 n2 : Nat} (hm : m2 ≤ m) (hk : k2 ≤ k) (hn : n2 ≤ n) :
    restMat false (C.put 0 0 (C.blk 0 0 m2 n2 + A.blk 0 0 m2 k2 * B.blk 0 0 k2 n2)) A B m k n m2 k2 n2 =
      C.put 0 0 (C.blk 0 0 m n + A.blk 0 0 m k * B.blk 0 0 k n) := by
  refine Mat.ext rfl rfl rfl ?_
  funext i j
  unfold restMat
  simp only [if_false, Bool.false_eq_true]
  by_cases h : i < m ∧ j < n
  · rw [Mat.put_in (i := i) (j := j) C _ (by omega), Matrix.add_apply, blk_mul_apply]
    by_cases hj : j < n2
    · by_cases hi : i < m2
      · rw [Mat.put_in _ _ (by omega), Matrix.add_apply, blk_mul_apply]
        simp only [Mat.blk, Matrix.of_apply, Nat.zero_add, Nat.sub_zero]
        rw [Mat.put_out _ _ (by omega), Mat.put_out _ _ (by omega), Mat.put_in _ _ (by omega)]
        have := blk_mul_apply A B 0 0 0 0 (m := m2) (k := k2) (n := n2) i j hi hj
        simp only [Mat.blk, Nat.zero_add] at this
        simp only [Nat.zero_add, Nat.sub_zero, Matrix.add_apply]
        rw [this, Matrix.of_apply, add_assoc]
        conv_rhs => rw [← Nat.add_sub_cancel' hk, Finset.sum_range_add]
      · rw [Mat.put_out _ _ (by omega), Mat.put_in _ _ (by omega), Matrix.add_apply, blk_mul_apply]
        simp only [Mat.blk, Matrix.of_apply, Nat.zero_add, Nat.sub_zero, Nat.add_sub_cancel' (Nat.le_of_not_lt hi)]
        rw [Mat.put_out _ _ (by omega), Mat.put_out _ _ (by omega)]
    · rw [Mat.put_out _ _ (by omega), Mat.put_out _ _ (by omega), Mat.put_in _ _ (by omega), Matrix.add_apply, blk_mul_apply]
      simp only [Mat.blk, Matrix.of_apply, Nat.zero_add, Nat.sub_zero, Nat.add_sub_cancel' (Nat.le_of_not_lt hj)]
      rw [Mat.put_out _ _ (by omega)]
  · repeat rw [Mat.put_out _ _ (by omega)]

/-- does the recursion succeed on operands of these dimensions -/
def strassenOk (d w : Nat) (cutoff : Int) : Nat → Nat → Nat → Nat → Bool
  | 0, _, _, _ => false
  | fuel + 1, m, k, n =>
    if m = 0 ∧ n = 0 then true
    else if strassenBase cutoff m k n then njOk d m k n
    else strassenOk d w cutoff fuel (halfDim w m) (halfDim w k) (halfDim w n) &&
      restOk d m k n (2 * halfDim w m) (2 * halfDim w k) (2 * halfDim w n)

theorem halfDim_le (w m : Nat) : 2 * halfDim w m ≤ m := by unfold halfDim; omega

theorem halfDim_aligned (m : Nat) : degreeToW ff.degree * halfDim (degreeToW ff.degree) m % 64 = 0 := by
  unfold halfDim
  rcases okW_ff (ff := ff) with h | h | h | h <;> rw [h] <;> omega

theorem halfDim_aligned2 (m : Nat) : degreeToW ff.degree * (2 * halfDim (degreeToW ff.degree) m) % 64 = 0 := by
  have := halfDim_aligned (ff := ff) m
  rw [Nat.mul_left_comm]; omega

theorem strassenMulStep_none {mul : Mzed → Mzed → Mzed → Option Mzed} (C A B : Mat ff) {m k n : Nat}
    (hk : degreeToW ff.degree * k % 64 = 0) (hn : degreeToW ff.degree * n % 64 = 0)
    (hmul : ∀ C A B : Mat ff, C.nrows = m → C.ncols = n → A.nrows = m → A.ncols = k → B.nrows = k → B.ncols = n →
      mul C.pack A.pack B.pack = none) :
    strassenMulStep mul C.pack A.pack B.pack m k n = none := by
  have h0 : degreeToW ff.degree * 0 % 64 = 0 := by simp
  unfold strassenMulStep
  simp only [window_pack _ _ _ _ _ h0, window_pack _ _ _ _ _ hk, window_pack _ _ _ _ _ hn, pack_ff, pack_fid, pack_nrows, pack_ncols,
    init_pack, Option.bind_eq_bind]
  have hA12 : Tmp (A.window 0 k m (2 * k)) (A.blk 0 k m k) := Tmp.win _ (by omega) (by omega)
  have hA22 : Tmp (A.window m k (2 * m) (2 * k)) (A.blk m k m k) := Tmp.win _ (by omega) (by omega)
  have hB12 : Tmp (B.window 0 n k (2 * n)) (B.blk 0 n k n) := Tmp.win _ (by omega) (by omega)
  have hB22 : Tmp (B.window k n (2 * k) (2 * n)) (B.blk k n k n) := Tmp.win _ (by omega) (by omega)
  have hmk : Tmp (⟨m, k, A.fid, fun _ _ => 0⟩ : Mat ff) _ := ⟨rfl, rfl, rfl⟩
  have hkn : Tmp (⟨k, n, A.fid, fun _ _ => 0⟩ : Mat ff) _ := ⟨rfl, rfl, rfl⟩
  obtain ⟨K1, e, hK1⟩ := Tmp.add hkn hB22 hB12
  rw [e]; clear e
  obtain ⟨M1, e, hM1⟩ := Tmp.add hmk hA22 hA12
  rw [e]; clear e
  have e : (onWindow C.pack m 0 (2 * m) n fun W => mul W M1.pack K1.pack) = none := by
    unfold onWindow
    rw [window_pack _ _ _ _ _ h0]
    refine (congrArg _ (hmul (C.window m 0 (2 * m) n) M1 K1 (by simp; omega) (by simp) hM1.nrows hM1.ncols hK1.nrows hK1.ncols)).trans ?_
    rfl
  rw [e, Option.bind_none]

theorem strassenAddmulStep_none {mul addmul : Mzed → Mzed → Mzed → Option Mzed} (C A B : Mat ff) {m k n : Nat}
    (hk : degreeToW ff.degree * k % 64 = 0) (hn : degreeToW ff.degree * n % 64 = 0)
    (hmul : ∀ C A B : Mat ff, C.nrows = m → C.ncols = n → A.nrows = m → A.ncols = k → B.nrows = k → B.ncols = n →
      mul C.pack A.pack B.pack = none) :
    strassenAddmulStep mul addmul C.pack A.pack B.pack m k n = none := by
  have h0 : degreeToW ff.degree * 0 % 64 = 0 := by simp
  unfold strassenAddmulStep
  simp only [window_pack _ _ _ _ _ h0, window_pack _ _ _ _ _ hk, window_pack _ _ _ _ _ hn, pack_ff, pack_fid, pack_nrows, pack_ncols,
    init_pack, Option.bind_eq_bind]
  have hA21 : Tmp (A.window m 0 (2 * m) k) (A.blk m 0 m k) := Tmp.win _ (by omega) (by omega)
  have hA22 : Tmp (A.window m k (2 * m) (2 * k)) (A.blk m k m k) := Tmp.win _ (by omega) (by omega)
  have hB21 : Tmp (B.window k 0 (2 * k) n) (B.blk k 0 k n) := Tmp.win _ (by omega) (by omega)
  have hB22 : Tmp (B.window k n (2 * k) (2 * n)) (B.blk k n k n) := Tmp.win _ (by omega) (by omega)
  have hmk : Tmp (⟨m, k, A.fid, fun _ _ => 0⟩ : Mat ff) _ := ⟨rfl, rfl, rfl⟩
  have hkn : Tmp (⟨k, n, A.fid, fun _ _ => 0⟩ : Mat ff) _ := ⟨rfl, rfl, rfl⟩
  obtain ⟨M1, e, hM1⟩ := Tmp.add hmk hA22 hA21
  rw [e]; clear e
  obtain ⟨K1, e, hK1⟩ := Tmp.add hkn hB22 hB21
  rw [e]; clear e
  rw [hmul ⟨m, n, A.fid, fun _ _ => 0⟩ M1 K1 rfl rfl hM1.nrows hM1.ncols hK1.nrows hK1.ncols, Option.bind_none]

theorem mulStrassen_pack {nj : Mzed → Mzed → Mzed → Option Mzed} (hnj : NjSpec nj ff) (cutoff : Int) (fuel : Nat) :
    ∀ C A B : Mat ff, C.nrows = A.nrows → C.ncols = B.ncols → B.nrows = A.ncols →
    mulStrassenF nj cutoff fuel C.pack A.pack B.pack =
      if strassenOk ff.degree (degreeToW ff.degree) cutoff fuel A.nrows A.ncols B.ncols then some (C.mulM A B).pack else none := by
  induction fuel with
  | zero => intro C A B h1 h2 h3; rfl
  | succ fuel ih =>
    intro C A B h1 h2 h3
    unfold mulStrassenF strassenOk
    simp only [pack_nrows, pack_ncols, pack_ff, pack_fid, pack_w]
    by_cases hz : C.nrows = 0 ∧ C.ncols = 0
    · refine (if_pos hz).trans ?_
      have hz' : A.nrows = 0 ∧ B.ncols = 0 := by omega
      rw [if_pos hz', if_pos rfl]
      rw [Option.some_inj]
      refine congrArg Mat.pack (Mat.ext rfl rfl rfl ?_)
      funext i j
      refine (if_neg ?_).symm
      omega
    · refine (if_neg hz).trans ?_
      have hz' : ¬ (A.nrows = 0 ∧ B.ncols = 0) := by omega
      rw [if_neg hz']
      by_cases hb : strassenBase cutoff A.nrows A.ncols B.ncols = true
      · refine (if_pos hb).trans ?_
        rw [if_pos hb, init_pack, hnj ⟨C.nrows, C.ncols, C.fid, fun _ _ => 0⟩ _ _ h1 h2]
        by_cases ho : njOk ff.degree A.nrows A.ncols B.ncols = true
        · rw [if_pos ho, if_pos ho, Option.bind_some]
          rw [copyM_pack C (Mat.addMulM ⟨C.nrows, C.ncols, C.fid, fun _ _ => 0⟩ A B) rfl rfl rfl]
          rw [Option.some_inj]
          refine congrArg Mat.pack (Mat.ext rfl rfl rfl ?_)
          funext i j
          simp only [Mat.copyM, Mat.addMulM, Mat.mulM]
          by_cases hij : i < C.nrows ∧ j < C.ncols
          · rw [if_pos hij, if_pos hij, if_pos hij, zero_add]
          · rw [if_neg hij, if_neg hij]
        · rw [if_neg ho, if_neg ho, Option.bind_none]
      · refine (if_neg hb).trans ?_
        rw [if_neg hb]
        generalize hm' : halfDim (degreeToW ff.degree) A.nrows = m
        generalize hk' : halfDim (degreeToW ff.degree) A.ncols = k
        generalize hn' : halfDim (degreeToW ff.degree) B.ncols = n
        have ak : degreeToW ff.degree * k % 64 = 0 := hk' ▸ halfDim_aligned _
        have an : degreeToW ff.degree * n % 64 = 0 := hn' ▸ halfDim_aligned _
        have ak2 : degreeToW ff.degree * (2 * k) % 64 = 0 := hk' ▸ halfDim_aligned2 _
        have an2 : degreeToW ff.degree * (2 * n) % 64 = 0 := hn' ▸ halfDim_aligned2 _
        have lm : 2 * m ≤ A.nrows := hm' ▸ halfDim_le _ _
        have lk : 2 * k ≤ A.ncols := hk' ▸ halfDim_le _ _
        have ln : 2 * n ≤ B.ncols := hn' ▸ halfDim_le _ _
        by_cases ho : strassenOk ff.degree (degreeToW ff.degree) cutoff fuel m k n = true
        · rw [strassenMulStep_pack C A B ak an (by
            intro C A B c1 c2 c3 c4 c5 c6
            rw [ih C A B (by omega) (by omega) (by omega), c3, c4, c6, if_pos ho, Mat.mulM_eq_put _ _ _ c1 c2 c4]), Option.bind_some,
            strassenRest_pack hnj true _ A B rfl rfl an2 ak2, ho, Bool.true_and, restMat_mul C A B lm lk ln,
            Mat.mulM_eq_put C A B h1 h2 rfl]
        · rw [strassenMulStep_none C A B ak an (by
            intro C A B c1 c2 c3 c4 c5 c6
            rw [ih C A B (by omega) (by omega) (by omega), c3, c4, c6, if_neg ho]), Option.bind_none]
          simp only [Bool.not_eq_true] at ho
          rw [ho, Bool.false_and]
          rfl

theorem addmulStrassen_pack {nj : Mzed → Mzed → Mzed → Option Mzed} (hnj : NjSpec nj ff) (cutoff : Int) (fuel : Nat) :
    ∀ C A B : Mat ff, C.nrows = A.nrows → C.ncols = B.ncols → B.nrows = A.ncols →
    addmulStrassenF nj cutoff fuel C.pack A.pack B.pack =
      if strassenOk ff.degree (degreeToW ff.degree) cutoff fuel A.nrows A.ncols B.ncols then some (C.addMulM A B).pack else none := by
  induction fuel with
  | zero => intro C A B h1 h2 h3; rfl
  | succ fuel ih =>
    intro C A B h1 h2 h3
    unfold addmulStrassenF strassenOk
    simp only [pack_nrows, pack_ncols, pack_ff, pack_fid, pack_w]
    by_cases hz : C.nrows = 0 ∧ C.ncols = 0
    · refine (if_pos hz).trans ?_
      have hz' : A.nrows = 0 ∧ B.ncols = 0 := by omega
      rw [if_pos hz', if_pos rfl]
      rw [Option.some_inj]
      refine congrArg Mat.pack (Mat.ext rfl rfl rfl ?_)
      funext i j
      refine (if_neg ?_).symm
      omega
    · refine (if_neg hz).trans ?_
      have hz' : ¬ (A.nrows = 0 ∧ B.ncols = 0) := by omega
      rw [if_neg hz']
      by_cases hb : strassenBase cutoff A.nrows A.ncols B.ncols = true
      · refine (if_pos hb).trans ?_
        rw [if_pos hb, init_pack, copyM_pack ⟨C.nrows, C.ncols, C.fid, fun _ _ => 0⟩ C rfl rfl rfl, Option.bind_some,
          hnj (Mat.copyM ⟨C.nrows, C.ncols, C.fid, fun _ _ => 0⟩ C) _ _ h1 h2]
        by_cases ho : njOk ff.degree A.nrows A.ncols B.ncols = true
        · rw [if_pos ho, if_pos ho, Option.bind_some]
          rw [copyM_pack C (Mat.addMulM (Mat.copyM ⟨C.nrows, C.ncols, C.fid, fun _ _ => 0⟩ C) A B) rfl rfl rfl]
          rw [Option.some_inj]
          refine congrArg Mat.pack (Mat.ext rfl rfl rfl ?_)
          funext i j
          simp only [Mat.copyM, Mat.addMulM]
          by_cases hij : i < C.nrows ∧ j < C.ncols
          · rw [if_pos hij, if_pos hij, if_pos hij, if_pos hij]
          · rw [if_neg hij, if_neg hij]
        · rw [if_neg ho, if_neg ho, Option.bind_none]
      · refine (if_neg hb).trans ?_
        rw [if_neg hb]
        generalize hm' : halfDim (degreeToW ff.degree) A.nrows = m
        generalize hk' : halfDim (degreeToW ff.degree) A.ncols = k
        generalize hn' : halfDim (degreeToW ff.degree) B.ncols = n
        have ak : degreeToW ff.degree * k % 64 = 0 := hk' ▸ halfDim_aligned _
        have an : degreeToW ff.degree * n % 64 = 0 := hn' ▸ halfDim_aligned _
        have ak2 : degreeToW ff.degree * (2 * k) % 64 = 0 := hk' ▸ halfDim_aligned2 _
        have an2 : degreeToW ff.degree * (2 * n) % 64 = 0 := hn' ▸ halfDim_aligned2 _
        have lm : 2 * m ≤ A.nrows := hm' ▸ halfDim_le _ _
        have lk : 2 * k ≤ A.ncols := hk' ▸ halfDim_le _ _
        have ln : 2 * n ≤ B.ncols := hn' ▸ halfDim_le _ _
        by_cases ho : strassenOk ff.degree (degreeToW ff.degree) cutoff fuel m k n = true
        · rw [strassenAddmulStep_pack C A B ak an (by
            intro C A B c1 c2 c3 c4 c5 c6
            rw [mulStrassen_pack hnj cutoff fuel C A B (by omega) (by omega) (by omega), c3, c4, c6, if_pos ho, Mat.mulM_eq_put _ _ _ c1 c2 c4]) (by
            intro C A B c1 c2 c3 c4 c5 c6
            rw [ih C A B (by omega) (by omega) (by omega), c3, c4, c6, if_pos ho, Mat.addMulM_eq_put _ _ _ c1 c2 c4]), Option.bind_some,
            strassenRest_pack hnj false _ A B rfl rfl an2 ak2, ho, Bool.true_and, restMat_addmul C A B lm lk ln,
            Mat.addMulM_eq_put C A B h1 h2 rfl]
        · rw [strassenAddmulStep_none C A B ak an (by
            intro C A B c1 c2 c3 c4 c5 c6
            rw [mulStrassen_pack hnj cutoff fuel C A B (by omega) (by omega) (by omega), c3, c4, c6, if_neg ho]), Option.bind_none]
          simp only [Bool.not_eq_true] at ho
          rw [ho, Bool.false_and]
          rfl

/-- with a large enough cutoff, or operands that are not empty, the recursion always succeeds -/
theorem strassenOk_of_cutoff {d w : Nat} (hd : 0 < d) (hw : OkW w) {cutoff : Int} (hc : 128 / (w : Int) ≤ cutoff + 1) :
    ∀ fuel m k n, 0 < n → m + n < fuel → strassenOk d w cutoff fuel m k n = true := by
  intro fuel
  induction fuel with
  | zero => intro m k n _ h; omega
  | succ fuel ih =>
    intro m k n hn hf
    unfold strassenOk
    split_ifs with h1 h2
    · rfl
    · unfold njOk
      have : n ≠ 0 := by omega
      simp [this]
    · have hw' : w = 2 ∨ w = 4 ∨ w = 8 ∨ w = 16 := hw
      have hbase : ¬ closer n (n / 2) cutoff := by
        intro h
        apply h2
        unfold strassenBase
        simp [h]
      have hnc : cutoff < n := by
        unfold closer at hbase
        simp only [decide_eq_true_eq, not_lt] at hbase
        by_contra hlt
        omega
      have hn2 : 2 * (64 / w) ≤ n := by
        rcases hw' with rfl | rfl | rfl | rfl <;> omega
      have hnn : 0 < halfDim w n := by
        unfold halfDim
        rcases hw' with rfl | rfl | rfl | rfl <;> omega
      have e1 : halfDim w m ≤ m := by have := halfDim_le w m; omega
      have e2 : halfDim w n < n := by have := halfDim_le w n; omega
      rw [ih _ _ _ hnn (by omega), Bool.true_and]
      unfold restOk njOk
      have : 2 * halfDim w n ≠ 0 := by omega
      simp [this]

end M4rie
