import Verif.Model.Ops
import Verif.Proofs.NjEchelon

/-!
# Bounds on the number of operations in the field
-/

namespace M4rie
open M4rie.Spec

/-! ### combinators -/

theorem Spec.Costs.mono {α : Type} {x : Counted α} {v : α} {a b a' b' : Nat} (h : Costs x v a b) (ha : a ≤ a') (hb : b ≤ b') : Costs x v a' b' :=
  ⟨h.val, h.muls.trans ha, h.adds.trans hb⟩

theorem costs_pure {α : Type} (v : α) : Costs (pure v) v 0 0 := ⟨rfl, le_rfl, le_rfl⟩

theorem costs_bind {α β : Type} {x : Counted α} {f : α → Counted β} {v : α} {w : β} {a b a' b' : Nat} (h : Costs x v a b) (h' : Costs (f v) w a' b') :
    Costs (x >>= f) w (a + a') (b + b') := by
  obtain ⟨rfl, h2, h3⟩ := h
  exact ⟨h'.val, Nat.add_le_add h2 h'.muls, Nat.add_le_add h3 h'.adds⟩

theorem costs_map {α β : Type} {x : Counted α} (g : α → β) {v : α} {a b : Nat} (h : Costs x v a b) : Costs (x >>= fun y => pure (g y)) (g v) a b := by
  obtain ⟨rfl, h2, h3⟩ := h
  exact ⟨rfl, h2, h3⟩

theorem costs_forN {σ : Type} {fC : Nat → σ → Counted σ} {f : Nat → σ → σ} (P : σ → Prop) {s : σ} {a b : Nat} : ∀ n, P s →
    (∀ i, i < n → ∀ t, P t → Costs (fC i t) (f i t) a b ∧ P (f i t)) → Costs (forNC fC n s) (forN f n s) (n * a) (n * b) ∧ P (forN f n s)
  | 0, h0, _ => ⟨(costs_pure s).mono (by omega) (by omega), h0⟩
  | n + 1, h0, h => by
    obtain ⟨c, p⟩ := costs_forN P n h0 fun i hi => h i (by omega)
    obtain ⟨c', p'⟩ := h n (by omega) _ p
    exact ⟨(costs_bind c c').mono (by rw [Nat.succ_mul]) (by rw [Nat.succ_mul]), p'⟩

/-! ### shapes -/

/-- an `m × n` matrix over a field of degree `e` -/
structure Shape (e m n : Nat) (A : Mzed) : Prop where
  nrows : A.nrows = m
  ncols : A.ncols = n
  deg : A.ff.degree = e
  okw : OkW A.w

variable {e m n : Nat}

theorem shape_addMult {A : Mzed} (h : Shape e m n A) (ar : Nat) (B : Mzed) (br : Nat) (x : Word) (s : Nat) : Shape e m n (mzedAddMultipleOfRow A ar B br x s) := by
  obtain ⟨code, h1, h2⟩ := addmulCode_ok h.okw
  unfold mzedAddMultipleOfRow
  rw [h1]
  split_ifs
  · exact h
  · exact ⟨h.1, h.2, h.3, h.4⟩
  · exact ⟨h.1, h.2, h.3, h.4⟩

theorem shape_rescale {A : Mzed} (h : Shape e m n A) (r s : Nat) (x : Word) : Shape e m n (mzedRescaleRow A r s x) := by
  obtain ⟨code, h1, h2⟩ := rescaleCode_ok h.okw
  unfold mzedRescaleRow
  rw [h1]
  exact ⟨h.1, h.2, h.3, h.4⟩

theorem shape_rowSwap {A : Mzed} (h : Shape e m n A) (a b : Nat) : Shape e m n (mzedRowSwap A a b) := ⟨h.1, h.2, h.3, h.4⟩

theorem forN_keep {σ : Type} {f : Nat → σ → σ} (P : σ → Prop) (hf : ∀ i t, P t → P (f i t)) : ∀ k s, P s → P (forN f k s)
  | 0, _, h => h
  | k + 1, s, h => hf k _ (forN_keep P hf k s h)

theorem shape_processRows {A : Mzed} (h : Shape e m n A) (a b c k : Nat) (Ts : Nat → Njt) : Shape e m n (mzedProcessRows A a b c k Ts) := by
  unfold mzedProcessRows
  refine forN_keep (Shape e m n) ?_ _ _ h
  intro i t ht
  exact ⟨ht.1, ht.2, ht.3, ht.4⟩

theorem shape_combine {A : Mzed} (h : Shape e m n A) (j : Nat) (T : Mzed) (x : Nat) : Shape e m n (mzedCombine A j T x) := ⟨h.1, h.2, h.3, h.4⟩
theorem shape_combine8 {A : Mzed} (h : Shape e m n A) (j : Nat) (Ts : Nat → Njt) (x : Nat → Nat) : Shape e m n (mzedCombine8 A j Ts x) := ⟨h.1, h.2, h.3, h.4⟩

/-! ### row functions -/

theorem costs_addMult {A : Mzed} (h : Shape e m n A) (ar : Nat) (B : Mzed) (br : Nat) (x : Word) (s : Nat) :
    Costs (addMultC A ar B br x s) (mzedAddMultipleOfRow A ar B br x s) n n := by
  refine ⟨rfl, ?_, ?_⟩ <;> unfold addMultC <;> dsimp only <;> rw [h.ncols] <;> split_ifs <;> omega

theorem costs_rescale {A : Mzed} (h : Shape e m n A) (r s : Nat) (x : Word) : Costs (rescaleC A r s x) (mzedRescaleRow A r s x) (n - s) 0 :=
  ⟨rfl, by unfold rescaleC; dsimp only; rw [h.ncols], le_rfl⟩

theorem costs_combine {A : Mzed} (h : Shape e m n A) (j : Nat) (T : Mzed) (x : Nat) : Costs (combineC A j T x) (mzedCombine A j T x) 0 n :=
  ⟨rfl, le_rfl, le_of_eq h.ncols⟩

theorem costs_combine8 {A : Mzed} (h : Shape e m n A) (j : Nat) (Ts : Nat → Njt) (x : Nat → Nat) : Costs (combine8C A j Ts x) (mzedCombine8 A j Ts x) 0 (8 * n) :=
  ⟨rfl, le_rfl, by unfold combine8C; dsimp only; rw [h.ncols]⟩

theorem wordEntries_le {A : Mzed} (h : Shape e m n A) (c : Nat) : wordEntries A c ≤ n := by
  unfold wordEntries; rw [h.ncols]; exact Nat.sub_le _ _

theorem costs_processRows {A : Mzed} (h : Shape e m n A) (a b c k : Nat) (Ts : Nat → Njt) :
    Costs (processRowsC A a b c k Ts) (mzedProcessRows A a b c k Ts) 0 ((b - a) * (k * n)) :=
  ⟨rfl, le_rfl, Nat.mul_le_mul_left _ (Nat.mul_le_mul_left _ (wordEntries_le h c))⟩

/-! ### tables -/

/-- tables for rows of `n` elements -/
structure TabShape (e n : Nat) (T : Njt) : Prop where
  M : Shape e e n T.M
  T : Shape e (2 ^ e) n T.T

theorem njtInit_shape {ff : Gf2e} [IsField ff] {fid : Nat} : TabShape ff.degree n (njtInit ff fid n) :=
  ⟨⟨rfl, rfl, rfl, okW_ff (ff := ff)⟩, ⟨rfl, rfl, rfl, okW_ff (ff := ff)⟩⟩

/-- what one table costs: `e - 1` multiples of the row (the first multiple is the row itself) and one sum of rows for all other entries of the table -/
theorem costs_makeTable (cb : Codebook) {T : Njt} (hT : TabShape e n T) {A : Mzed} (hA : A.ff.degree = e) (he : 2 ≤ e) (r c : Nat) :
    Costs (makeTableC cb T A r c) (mzedMakeTable cb T A r c) ((e - 1) * n) ((e + 2 ^ e) * n) ∧ TabShape e n (mzedMakeTable cb T A r c) := by
  have hM0 : Shape e e n { T.M with words := mzdClear T.M.nrows T.M.bitCols T.M.words } := ⟨hT.M.1, hT.M.2, hT.M.3, hT.M.4⟩
  -- the multiples
  have key : ∀ k, 1 ≤ k → Costs (forNC (fun i M => addMultC M i A r (twoPow i) c) k { T.M with words := mzdClear T.M.nrows T.M.bitCols T.M.words })
      (forN (fun i M => mzedAddMultipleOfRow M i A r (twoPow i) c) k { T.M with words := mzdClear T.M.nrows T.M.bitCols T.M.words }) ((k - 1) * n) (k * n) ∧
      Shape e e n (forN (fun i M => mzedAddMultipleOfRow M i A r (twoPow i) c) k { T.M with words := mzdClear T.M.nrows T.M.bitCols T.M.words }) := by
    intro k hk
    induction k with
    | zero => omega
    | succ k ih =>
      by_cases h0 : k = 0
      · subst h0
        have h1 := costs_addMult hM0 0 A r (twoPow 0) c
        have h2 : Costs (addMultC { T.M with words := mzdClear T.M.nrows T.M.bitCols T.M.words } 0 A r (twoPow 0) c)
            (mzedAddMultipleOfRow { T.M with words := mzdClear T.M.nrows T.M.bitCols T.M.words } 0 A r (twoPow 0) c) 0 n := by
          refine ⟨h1.val, ?_, h1.adds⟩
          unfold addMultC
          dsimp only
          rw [if_pos (Or.inr (by decide : twoPow 0 = 1#64))]
        exact ⟨(costs_bind (costs_pure _) h2).mono (by omega) (by omega), shape_addMult hM0 _ _ _ _ _⟩
      · obtain ⟨c1, s1⟩ := ih (by omega)
        refine ⟨(costs_bind c1 (costs_addMult s1 k A r (twoPow k) c)).mono (le_of_eq ?_) (by rw [Nat.succ_mul]), shape_addMult s1 _ _ _ _ _⟩
        obtain ⟨q, rfl⟩ : ∃ q, k = q + 1 := ⟨k - 1, by omega⟩
        rw [Nat.add_sub_cancel, Nat.add_sub_cancel, Nat.succ_mul]
  obtain ⟨c1, s1⟩ := key e (by omega)
  rw [← hA] at c1 s1
  unfold makeTableC mzedMakeTable
  dsimp only
  set M1 := forN (fun i M => mzedAddMultipleOfRow M i A r (twoPow i) c) A.ff.degree { T.M with words := mzdClear T.M.nrows T.M.bitCols T.M.words } with hM1
  -- the entries
  have step : Costs (forNC (fun k s => (⟨njStep cb M1 (A.w * c / 64) k s, 0, wordEntries T.M c⟩ : Counted ((Nat → Nat) × Mzed))) (T.T.nrows - 1) (T.L, T.T))
      (forN (njStep cb M1 (A.w * c / 64)) (T.T.nrows - 1) (T.L, T.T)) ((T.T.nrows - 1) * 0) ((T.T.nrows - 1) * n) ∧
      Shape e (2 ^ e) n (forN (njStep cb M1 (A.w * c / 64)) (T.T.nrows - 1) (T.L, T.T)).2 :=
    costs_forN (fun s : (Nat → Nat) × Mzed => Shape e (2 ^ e) n s.2) _ hT.T fun i _ t ht => ⟨⟨rfl, le_rfl, wordEntries_le hT.M c⟩, ⟨ht.1, ht.2, ht.3, ht.4⟩⟩
  obtain ⟨c2, s2⟩ := step
  refine ⟨?_, ⟨by rw [hA] at s1; exact s1, s2⟩⟩
  refine (costs_bind c1 (costs_map (fun s : (Nat → Nat) × Mzed => (⟨s.1, M1, s.2⟩ : Njt)) c2)).mono ?_ ?_
  · rw [hA]; omega
  · rw [hT.T.nrows, hA]
    have : (2 ^ e - 1) * n ≤ 2 ^ e * n := Nat.mul_le_mul_right _ (Nat.sub_le _ _)
    rw [Nat.add_mul]
    omega

theorem costs_makeTables (cb : Codebook) {A : Mzed} (hA : A.ff.degree = e) (he : 2 ≤ e) (r c dc k : Nat) {Ts : Nat → Njt} (hT : ∀ q, TabShape e n (Ts q)) :
    Costs (makeTablesC cb A r c dc k Ts) (makeTables cb A r c dc k Ts) (k * ((e - 1) * n)) (k * ((e + 2 ^ e) * n)) ∧
    ∀ q, TabShape e n (makeTables cb A r c dc k Ts q) := by
  unfold makeTablesC makeTables
  refine costs_forN (fun Ts : Nat → Njt => ∀ q, TabShape e n (Ts q)) k hT fun i _ Us hU => ?_
  obtain ⟨c1, s1⟩ := costs_makeTable cb (hU i) hA he (r + i) (c + dc * i)
  refine ⟨costs_map (fun T k => if k = i then T else Us k) c1, fun q => ?_⟩
  split_ifs
  · exact s1
  · exact hU q

/-! ### PLE decomposition -/

theorem costs_pleClear (cb : Codebook) (he : 2 ≤ e) (rowPos j : Nat) (tmp : Word) {A : Mzed} (hA : Shape e m n A) {T : Njt} (hT : TabShape e n T) :
    Costs (pleClearNjC cb rowPos j tmp (A, T)) (pleClearNj cb rowPos j tmp (A, T)) (e * n) ((e + 2 ^ e + m) * n) ∧
    Shape e m n (pleClearNj cb rowPos j tmp (A, T)).1 ∧ TabShape e n (pleClearNj cb rowPos j tmp (A, T)).2 := by
  have s1 := shape_rescale hA rowPos (j + 1) (gf2eInv A.ff tmp)
  obtain ⟨c2, t2⟩ := costs_makeTable cb hT s1.deg he rowPos (j + 1)
  refine ⟨?_, shape_processRows s1 _ _ _ _ _, t2⟩
  refine (costs_bind (costs_rescale hA rowPos (j + 1) (gf2eInv A.ff tmp)) (costs_bind c2
    (costs_map (fun A' => (A', mzedMakeTable cb T (mzedRescaleRow A rowPos (j + 1) (gf2eInv A.ff tmp)) rowPos (j + 1)))
      (costs_processRows s1 (rowPos + 1) _ j 1 _)))).mono ?_ ?_
  · obtain ⟨q, rfl⟩ : ∃ q, e = q + 1 := ⟨e - 1, by omega⟩
    rw [Nat.add_sub_cancel, Nat.succ_mul]
    omega
  · rw [s1.nrows, Nat.one_mul]
    have : (m - (rowPos + 1)) * n ≤ m * n := Nat.mul_le_mul_right _ (by omega)
    rw [Nat.add_mul (e + 2 ^ e)]
    omega

theorem costs_pleLoop (cb : Codebook) (he : 2 ≤ e) : ∀ fuel (s : PleState Njt), Shape e m n s.A → TabShape e n s.T →
    Costs (pleLoopC (pleClearNjC cb) fuel s) (pleLoop (pleClearNj cb) fuel s)
      (((pleLoop (pleClearNj cb) fuel s).rowPos - s.rowPos) * (e * n)) (((pleLoop (pleClearNj cb) fuel s).rowPos - s.rowPos) * ((e + 2 ^ e + m) * n)) ∧
    s.rowPos ≤ (pleLoop (pleClearNj cb) fuel s).rowPos
  | 0, s, _, _ => ⟨(costs_pure s).mono (Nat.zero_le _) (Nat.zero_le _), le_rfl⟩
  | fuel + 1, s, hs, hT => by
    unfold pleLoopC pleLoop
    by_cases h : s.rowPos < s.A.nrows ∧ s.colPos < s.A.ncols
    · rw [if_pos h, if_pos h]
      rcases hp : plePivot s.A s.rowPos (s.A.ncols - s.colPos) s.colPos with _ | ⟨i, j⟩
      · exact ⟨(costs_pure s).mono (Nat.zero_le _) (Nat.zero_le _), le_rfl⟩
      · dsimp only
        have sw := shape_rowSwap hs s.rowPos i
        have step : Costs (if j + 1 < (mzedRowSwap s.A s.rowPos i).ncols then pleClearNjC cb s.rowPos j (mzedReadElem s.A i j) (mzedRowSwap s.A s.rowPos i, s.T)
              else pure (mzedRowSwap s.A s.rowPos i, s.T))
            (if j + 1 < (mzedRowSwap s.A s.rowPos i).ncols then pleClearNj cb s.rowPos j (mzedReadElem s.A i j) (mzedRowSwap s.A s.rowPos i, s.T)
              else (mzedRowSwap s.A s.rowPos i, s.T)) (e * n) ((e + 2 ^ e + m) * n) ∧
            Shape e m n (if j + 1 < (mzedRowSwap s.A s.rowPos i).ncols then pleClearNj cb s.rowPos j (mzedReadElem s.A i j) (mzedRowSwap s.A s.rowPos i, s.T)
              else (mzedRowSwap s.A s.rowPos i, s.T)).1 ∧
            TabShape e n (if j + 1 < (mzedRowSwap s.A s.rowPos i).ncols then pleClearNj cb s.rowPos j (mzedReadElem s.A i j) (mzedRowSwap s.A s.rowPos i, s.T)
              else (mzedRowSwap s.A s.rowPos i, s.T)).2 := by
          split_ifs
          · exact costs_pleClear cb he _ _ _ sw hT
          · exact ⟨(costs_pure _).mono (Nat.zero_le _) (Nat.zero_le _), sw, hT⟩
        obtain ⟨c1, sh, th⟩ := step
        generalize (if j + 1 < (mzedRowSwap s.A s.rowPos i).ncols then pleClearNj cb s.rowPos j (mzedReadElem s.A i j) (mzedRowSwap s.A s.rowPos i, s.T)
              else (mzedRowSwap s.A s.rowPos i, s.T)) = p at c1 sh th ⊢
        obtain ⟨c2, le2⟩ := costs_pleLoop cb he fuel ⟨p.1, setNat s.P s.rowPos i, setNat s.Q s.rowPos j, s.rowPos + 1, j + 1, p.2⟩ sh th
        dsimp only at le2
        refine ⟨(costs_bind c1 c2).mono (le_of_eq ?_) (le_of_eq ?_), by omega⟩
        all_goals
          dsimp only
          generalize (pleLoop (pleClearNj cb) fuel ⟨p.1, setNat s.P s.rowPos i, setNat s.Q s.rowPos j, s.rowPos + 1, j + 1, p.2⟩).rowPos = q at le2 ⊢
          obtain ⟨d, rfl⟩ := Nat.exists_eq_add_of_le le2
          rw [Nat.add_sub_cancel_left, show s.rowPos + 1 + d - s.rowPos = d + 1 by omega, Nat.succ_mul, Nat.add_comm]
    · rw [if_neg h, if_neg h]
      exact ⟨(costs_pure s).mono (Nat.zero_le _) (Nat.zero_le _), le_rfl⟩


/-! ### triangular solving -/

theorem costs_rows (k : Nat) {B : Mzed} (hB : Shape e m n B) {fC : Nat → Mzed → Counted Mzed} {f : Nat → Mzed → Mzed} {a b : Nat}
    (h : ∀ i A, Shape e m n A → Costs (fC i A) (f i A) a b ∧ Shape e m n (f i A)) :
    Costs (forNC fC k B) (forN f k B) (k * a) (k * b) ∧ Shape e m n (forN f k B) :=
  costs_forN (Shape e m n) k hB fun i _ A hA => h i A hA

/-- the textbook algorithm multiplies as often as it adds -/
theorem costs_trsmNaive {B : Mzed} (hB : Shape e m n B) (U : Mzed) :
    Costs (trsmUpperLeftNaiveC U B) (mzedTrsmUpperLeftNaive U B) (m * (m * n)) (m * (m * n)) ∧
    Costs (trsmLowerLeftNaiveC U B) (mzedTrsmLowerLeftNaive U B) (m * (m * n)) (m * (m * n)) := by
  have hn := hB.nrows
  constructor
  · unfold trsmUpperLeftNaiveC mzedTrsmUpperLeftNaive
    dsimp only
    rw [hn]
    refine (costs_forN (Shape e m n) m hB fun t ht A hA => ?_).1
    obtain ⟨c1, s1⟩ := costs_rows (m - (m - 1 - t + 1)) hA (fC := fun d B => addMultC B (m - 1 - t) B (m - 1 - t + 1 + d) (mzedReadElem U (m - 1 - t) (m - 1 - t + 1 + d)) 0)
      fun i A hA => ⟨costs_addMult hA _ _ _ _ _, shape_addMult hA _ _ _ _ _⟩
    refine ⟨(costs_bind c1 (costs_rescale s1 _ 0 _)).mono ?_ ?_, shape_rescale s1 _ _ _⟩
    · have : (m - (m - 1 - t + 1) + 1) * n ≤ m * n := Nat.mul_le_mul_right _ (by omega)
      rw [Nat.succ_mul] at this
      omega
    · have : (m - (m - 1 - t + 1)) * n ≤ m * n := Nat.mul_le_mul_right _ (by omega)
      omega
  · unfold trsmLowerLeftNaiveC mzedTrsmLowerLeftNaive
    dsimp only
    rw [hn]
    refine (costs_forN (Shape e m n) m hB fun t ht A hA => ?_).1
    obtain ⟨c1, s1⟩ := costs_rows t hA (fC := fun k B => addMultC B t B k (mzedReadElem U t k) 0)
      fun i A hA => ⟨costs_addMult hA _ _ _ _ _, shape_addMult hA _ _ _ _ _⟩
    refine ⟨(costs_bind c1 (costs_rescale s1 _ 0 _)).mono ?_ ?_, shape_rescale s1 _ _ _⟩
    · have : (t + 1) * n ≤ m * n := Nat.mul_le_mul_right _ (by omega)
      rw [Nat.succ_mul] at this
      omega
    · have : t * n ≤ m * n := Nat.mul_le_mul_right _ (by omega)
      omega

theorem mul_e_n (he : 2 ≤ e) (n : Nat) : (e - 1) * n + n = e * n := by
  obtain ⟨q, rfl⟩ : ∃ q, e = q + 1 := ⟨e - 1, by omega⟩
  rw [Nat.add_sub_cancel, Nat.succ_mul]

theorem costs_trsmLower (cb : Codebook) (he : 2 ≤ e) {ff : Gf2e} [IsField ff] (hff : ff.degree = e) {B L : Mzed} (hB : Shape e m n B) (hBf : B.ff = ff) (hL : Shape e m m L) :
    Costs (trsmLowerLeftNewtonJohnC cb L B) (mzedTrsmLowerLeftNewtonJohn cb L B) (m * (2 ^ e * n)) (m * ((e + 2 ^ e + m) * n)) := by
  have e2 : e ≤ 2 ^ e := Nat.lt_two_pow_self.le
  unfold trsmLowerLeftNewtonJohnC mzedTrsmLowerLeftNewtonJohn
  by_cases h : 2 ^ L.ff.degree ≥ L.nrows
  · rw [if_pos h, if_pos h]
    rw [hL.deg, hL.nrows] at h
    refine (costs_trsmNaive hB L).2.mono (Nat.mul_le_mul_left _ (Nat.mul_le_mul_right _ h)) (Nat.mul_le_mul_left _ (Nat.mul_le_mul_right _ (by omega)))
  · rw [if_neg h, if_neg h]
    dsimp only
    refine costs_map (fun s : Mzed × Njt => s.1) ?_
    rw [hB.nrows]
    have hT0 : TabShape e n (njtInit B.ff B.fid B.ncols) := by rw [hB.ncols, hBf, ← hff]; exact njtInit_shape
    refine ((costs_forN (fun s : Mzed × Njt => Shape e m n s.1 ∧ TabShape e n s.2) m ⟨hB, hT0⟩ (fun i hi s hs => ?_)).1).mono
      (Nat.mul_le_mul_left _ (Nat.mul_le_mul_right _ e2)) le_rfl
    have s1 := shape_rescale hs.1 i 0 (gf2eInv L.ff (mzedReadElem L i i))
    obtain ⟨c2, t2⟩ := costs_makeTable cb hs.2 s1.deg he i 0
    obtain ⟨c3, s3⟩ := costs_rows (m - (i + 1)) s1 (fC := fun d B => combineC B (i + 1 + d)
        (mzedMakeTable cb s.2 (mzedRescaleRow s.1 i 0 (gf2eInv L.ff (mzedReadElem L i i))) i 0).T
        ((mzedMakeTable cb s.2 (mzedRescaleRow s.1 i 0 (gf2eInv L.ff (mzedReadElem L i i))) i 0).L (mzedReadElem L (i + 1 + d) i).toNat))
      fun d A hA => ⟨costs_combine hA _ _ _, shape_combine hA _ _ _⟩
    refine ⟨(costs_bind (costs_rescale hs.1 i 0 _) (costs_bind c2 (costs_map (fun B => (B, _)) c3))).mono ?_ ?_, s3, t2⟩
    · have := mul_e_n he n
      omega
    · have : (m - (i + 1)) * n ≤ m * n := Nat.mul_le_mul_right _ (by omega)
      rw [Nat.add_mul (e + 2 ^ e)]
      omega

theorem costs_trsmUpper (cb : Codebook) (he : 2 ≤ e) {ff : Gf2e} [IsField ff] (hff : ff.degree = e) {B U : Mzed} (hB : Shape e m n B) (hBf : B.ff = ff) (hU : Shape e m m U) :
    Costs (trsmUpperLeftNewtonJohnC cb U B) (mzedTrsmUpperLeftNewtonJohn cb U B) (m * (2 ^ e * n)) (m * ((e + 2 ^ e + m) * n)) := by
  have e2 : e ≤ 2 ^ e := Nat.lt_two_pow_self.le
  unfold trsmUpperLeftNewtonJohnC mzedTrsmUpperLeftNewtonJohn
  by_cases h : 2 ^ U.ff.degree ≥ U.nrows
  · rw [if_pos h, if_pos h]
    rw [hU.deg, hU.nrows] at h
    refine (costs_trsmNaive hB U).1.mono (Nat.mul_le_mul_left _ (Nat.mul_le_mul_right _ h)) (Nat.mul_le_mul_left _ (Nat.mul_le_mul_right _ (by omega)))
  · rw [if_neg h, if_neg h]
    dsimp only
    refine costs_map (fun s : Mzed × Njt => s.1) ?_
    rw [hB.nrows]
    have hT0 : TabShape e n (njtInit B.ff B.fid B.ncols) := by rw [hB.ncols, hBf, ← hff]; exact njtInit_shape
    refine ((costs_forN (fun s : Mzed × Njt => Shape e m n s.1 ∧ TabShape e n s.2) m ⟨hB, hT0⟩ (fun t ht s hs => ?_)).1).mono
      (Nat.mul_le_mul_left _ (Nat.mul_le_mul_right _ e2)) le_rfl
    generalize hi : m - 1 - t = i
    have s1 := shape_rescale hs.1 i 0 (gf2eInv U.ff (mzedReadElem U i i))
    obtain ⟨c2, t2⟩ := costs_makeTable cb hs.2 s1.deg he i 0
    obtain ⟨c3, s3⟩ := costs_rows i s1 (fC := fun j B => combineC B j
        (mzedMakeTable cb s.2 (mzedRescaleRow s.1 i 0 (gf2eInv U.ff (mzedReadElem U i i))) i 0).T
        ((mzedMakeTable cb s.2 (mzedRescaleRow s.1 i 0 (gf2eInv U.ff (mzedReadElem U i i))) i 0).L (mzedReadElem U j i).toNat))
      fun d A hA => ⟨costs_combine hA _ _ _, shape_combine hA _ _ _⟩
    refine ⟨(costs_bind (costs_rescale hs.1 i 0 _) (costs_bind c2 (costs_map (fun B => (B, _)) c3))).mono ?_ ?_, s3, t2⟩
    · have := mul_e_n he n
      omega
    · have : i * n ≤ m * n := Nat.mul_le_mul_right _ (by omega)
      rw [Nat.add_mul (e + 2 ^ e)]
      omega

/-! ### multiplication -/

theorem costs_mulNaive {A B C : Mzed} (hC : Shape e m n C) {k : Nat} (hk : A.ncols = k) :
    Costs (mulNaiveAccOpsC C A B) (mzedMulNaiveAcc C A B) (m * (n * (k * 1))) (m * (n * (k * 1))) := by
  unfold mulNaiveAccOpsC mzedMulNaiveAcc
  rw [hC.nrows]
  refine (costs_rows m hC fun i C1 h1 => ?_).1
  rw [h1.ncols]
  refine costs_rows n h1 fun j C2 h2 => ?_
  rw [hk]
  refine costs_rows k h2 fun l C3 h3 => ⟨⟨rfl, le_rfl, le_rfl⟩, ⟨h3.1, h3.2, h3.3, h3.4⟩⟩

theorem costs_mulNj0 (cb : Codebook) (he : 2 ≤ e) {A B C : Mzed} {k : Nat} (hA : A.nrows = m) (hB : B.ff.degree = e) (hC : Shape e m n C) {T : Njt} (hT : TabShape e n T) (from_ : Nat) :
    Costs (mulNj0FromC cb C A B T from_ k) (mulNj0From cb C A B T from_ k) (k * ((e - 1) * n)) (k * ((e + 2 ^ e + m) * n)) := by
  unfold mulNj0FromC mulNj0From
  refine (costs_forN (fun s : Mzed × Njt => Shape e m n s.1 ∧ TabShape e n s.2) k ⟨hC, hT⟩ fun i _ s hs => ?_).1
  obtain ⟨c1, t1⟩ := costs_makeTable cb hs.2 hB he (from_ + i) 0
  obtain ⟨c2, s2⟩ := costs_rows m hs.1 (fC := fun j C => combineC C j (mzedMakeTable cb s.2 B (from_ + i) 0).T
      ((mzedMakeTable cb s.2 B (from_ + i) 0).L (mzedReadElem A j (from_ + i)).toNat)) fun d A hA => ⟨costs_combine hA _ _ _, shape_combine hA _ _ _⟩
  rw [hA]
  refine ⟨(costs_bind c1 (costs_map (fun C => (C, _)) c2)).mono (by omega) ?_, s2, t1⟩
  rw [Nat.add_mul (e + 2 ^ e)]

theorem costs_giant (cb : Codebook) (he : 2 ≤ e) {A B : Mzed} (hB : B.ff.degree = e) (g count q : Nat) {s : Mzed × (Nat → Njt)}
    (hs : Shape e m n s.1 ∧ ∀ i, TabShape e n (s.2 i)) :
    Costs (njGiantC cb A B g count q s) (njGiant cb A B g count q s) (q * (8 * ((e - 1) * n))) (q * (8 * ((e + 2 ^ e + count) * n))) ∧
    (Shape e m n (njGiant cb A B g count q s).1 ∧ ∀ i, TabShape e n ((njGiant cb A B g count q s).2 i)) := by
  unfold njGiantC njGiant
  refine costs_forN (fun s : Mzed × (Nat → Njt) => Shape e m n s.1 ∧ ∀ i, TabShape e n (s.2 i)) q hs fun i _ s hs => ?_
  obtain ⟨c1, t1⟩ := costs_makeTables cb hB he (8 * i) 0 0 8 hs.2
  obtain ⟨c2, s2⟩ := costs_rows count hs.1 (fC := fun babystep C => combine8C C (g + babystep) (makeTables cb B (8 * i) 0 0 8 s.2)
      (fun q => ((makeTables cb B (8 * i) 0 0 8 s.2) q).L (mzedReadElem A (g + babystep) (8 * i + q)).toNat))
      fun d A hA => ⟨costs_combine8 hA _ _ _, shape_combine8 hA _ _ _⟩
  refine ⟨(costs_bind c1 (costs_map (fun C => (C, _)) c2)).mono (by omega) (le_of_eq (by ring)), s2, t1⟩

/-- the number of times the tables are made -/
def giantSteps (bs w m : Nat) : Nat := m / njBlocksize bs w m + 1

theorem costs_mulNj (cb : Codebook) (bs : Nat) (he : 2 ≤ e) {ff : Gf2e} [IsField ff] (hff : ff.degree = e) {A B C : Mzed} {k : Nat} (hA : Shape e m k A) (hB : B.ff = ff)
    (hBn : B.ncols = n) (hC : Shape e m n C) :
    Costs (mulNewtonJohnAccC cb bs C A B) (mzedMulNewtonJohnAcc cb bs C A B) (giantSteps bs A.w m * (k * ((e - 1) * n)))
      (giantSteps bs A.w m * (k * ((e + 2 ^ e) * n)) + m * k * n) := by
  have hBd : B.ff.degree = e := by rw [hB, hff]
  unfold mulNewtonJohnAccC mzedMulNewtonJohnAcc giantSteps
  by_cases h : A.ff.degree > A.nrows
  · rw [if_pos h, if_pos h]
    rw [hA.deg, hA.nrows] at h
    refine (costs_mulNaive hC hA.ncols).mono ?_ ?_
    · have h1 : m * (n * (k * 1)) = k * (m * n) := by ring
      have h2 : k * (m * n) ≤ k * ((e - 1) * n) := Nat.mul_le_mul_left _ (Nat.mul_le_mul_right _ (by omega))
      rw [h1, Nat.succ_mul]
      omega
    · have h1 : m * (n * (k * 1)) = m * k * n := by ring
      omega
  · rw [if_neg h, if_neg h]
    dsimp only
    rw [hA.ncols, hA.nrows]
    have hT0 : ∀ i : Nat, TabShape e n ((fun _ : Nat => njtInit B.ff B.fid B.ncols) i) := fun _ => by rw [hBn, hB, ← hff]; exact njtInit_shape
    generalize hbl : njBlocksize bs A.w m = bl
    obtain ⟨y, hy⟩ := Nat.exists_eq_add_of_le (Nat.div_mul_le_self m bl)
    have hinit : Shape e m n (C, fun _ : Nat => njtInit B.ff B.fid B.ncols).1 ∧ ∀ i, TabShape e n ((C, fun _ : Nat => njtInit B.ff B.fid B.ncols).2 i) := ⟨hC, hT0⟩
    obtain ⟨c1, s1⟩ := costs_forN (fC := fun g s => njGiantC cb A B (g * bl) bl (k / 8) s) (f := fun g s => njGiant cb A B (g * bl) bl (k / 8) s)
      (fun s : Mzed × (Nat → Njt) => Shape e m n s.1 ∧ ∀ i, TabShape e n (s.2 i)) (m / bl) hinit
      (fun g _ s hs => costs_giant cb he hBd (g * bl) bl (k / 8) hs)
    obtain ⟨c2, s2⟩ := costs_giant cb he (A := A) hBd (m / bl * bl) (m - m / bl * bl) (k / 8) s1
    -- the columns left over
    have tail : ∀ s : Mzed × (Nat → Njt), (Shape e m n s.1 ∧ ∀ i, TabShape e n (s.2 i)) →
        Costs (if k % 8 ≠ 0 then do
            let t ← mulNj0FromC cb s.1 A B (s.2 0) (8 * (k / 8)) (k - 8 * (k / 8))
            pure t.1
          else pure s.1)
        (if k % 8 ≠ 0 then (mulNj0From cb s.1 A B (s.2 0) (8 * (k / 8)) (k - 8 * (k / 8))).1 else s.1)
        ((k - 8 * (k / 8)) * ((e - 1) * n)) ((k - 8 * (k / 8)) * ((e + 2 ^ e + m) * n)) := by
      intro s hs
      by_cases h8 : k % 8 ≠ 0
      · rw [if_pos h8, if_pos h8]
        exact costs_map (fun t : Mzed × Njt => t.1) (costs_mulNj0 cb he hA.nrows hBd hs.1 (hs.2 0) _)
      · rw [if_neg h8, if_neg h8]
        exact (costs_pure _).mono (Nat.zero_le _) (Nat.zero_le _)
    refine (costs_bind c1 (costs_bind c2 (tail _ s2))).mono ?_ ?_
    all_goals
      clear c1 c2 tail s1 s2 hinit
      have hsub : m - m / bl * bl = y := by omega
      generalize m / bl = d at *
      obtain ⟨q, r, hk1, hk2⟩ : ∃ q r, k / 8 = q ∧ k = 8 * q + r := ⟨k / 8, k % 8, rfl, (Nat.div_add_mod k 8).symm⟩
      rw [hk1, show k - 8 * q = r by omega, hk2]
    · refine Nat.le.intro (k := d * (r * ((e - 1) * n))) ?_
      ring
    · refine Nat.le.intro (k := d * (r * ((e + 2 ^ e) * n))) ?_
      rw [hsub, hy]
      ring

/-! ### elimination -/

theorem costs_gaussClear {A : Mzed} (h : Shape e m n A) (i r c t : Nat) :
    Costs (gaussClearC A i r c t) (gaussClear A i r c t) (t * n) (t * n) ∧ Shape e m n (gaussClear A i r c t) := by
  unfold gaussClearC gaussClear
  refine costs_rows t h fun l A hA => ?_
  dsimp only
  split_ifs
  · exact ⟨(costs_pure A).mono (Nat.zero_le _) (Nat.zero_le _), hA⟩
  · exact ⟨costs_addMult hA _ _ _ _ _, shape_addMult hA _ _ _ _ _⟩

theorem costs_gaussAbove {A : Mzed} (h : Shape e m n A) (r t sr j : Nat) :
    Costs (gaussAboveC A r t sr j) (gaussAbove A r t sr j) (t * n) (t * n) ∧ Shape e m n (gaussAbove A r t sr j) := by
  unfold gaussAboveC gaussAbove
  refine costs_rows t h fun l A hA => ?_
  dsimp only
  split_ifs
  · exact ⟨(costs_pure A).mono (Nat.zero_le _) (Nat.zero_le _), hA⟩
  · exact ⟨costs_addMult hA _ _ _ _ _, shape_addMult hA _ _ _ _ _⟩

theorem costs_gaussRow (r c t : Nat) : ∀ N i (A : Mzed), Shape e m n A →
    Costs (gaussRowC r c t N i A) (gaussRow r c t N i A) (N * (t * n) + (t + 1) * n) (N * (t * n) + t * n) ∧ Shape e m n (gaussRow r c t N i A).1
  | 0, i, A, h => ⟨(costs_pure _).mono (Nat.zero_le _) (Nat.zero_le _), h⟩
  | N + 1, i, A, h => by
    unfold gaussRowC gaussRow
    dsimp only
    obtain ⟨c1, s1⟩ := costs_gaussClear h i r c t
    have rest : Costs (if mzedReadElem (gaussClear A i r c t) i (c + t) = 0#64 then gaussRowC r c t N (i + 1) (gaussClear A i r c t)
        else do
          let A' ← rescaleC (gaussClear A i r c t) i (c + t) (gf2eInv (gaussClear A i r c t).ff (mzedReadElem (gaussClear A i r c t) i (c + t)))
          let A'' ← gaussAboveC (mzedRowSwap A' i (r + t)) r t (r + t) (c + t)
          pure (A'', true))
        (if mzedReadElem (gaussClear A i r c t) i (c + t) = 0#64 then gaussRow r c t N (i + 1) (gaussClear A i r c t)
        else (gaussAbove (mzedRowSwap (mzedRescaleRow (gaussClear A i r c t) i (c + t) (gf2eInv (gaussClear A i r c t).ff (mzedReadElem (gaussClear A i r c t) i (c + t)))) i (r + t)) r t (r + t) (c + t), true))
        (N * (t * n) + (t + 1) * n) (N * (t * n) + t * n) ∧
        Shape e m n (if mzedReadElem (gaussClear A i r c t) i (c + t) = 0#64 then gaussRow r c t N (i + 1) (gaussClear A i r c t)
        else (gaussAbove (mzedRowSwap (mzedRescaleRow (gaussClear A i r c t) i (c + t) (gf2eInv (gaussClear A i r c t).ff (mzedReadElem (gaussClear A i r c t) i (c + t)))) i (r + t)) r t (r + t) (c + t), true)).1 := by
      split_ifs with h0
      · exact costs_gaussRow r c t N (i + 1) _ s1
      · have s2 := shape_rescale s1 i (c + t) (gf2eInv (gaussClear A i r c t).ff (mzedReadElem (gaussClear A i r c t) i (c + t)))
        obtain ⟨c3, s3⟩ := costs_gaussAbove (shape_rowSwap s2 i (r + t)) r t (r + t) (c + t)
        refine ⟨(costs_bind (costs_rescale s1 i (c + t) _) (costs_map (fun A => (A, true)) c3)).mono ?_ (by omega), s3⟩
        rw [Nat.succ_mul]
        omega
    refine ⟨(costs_bind c1 rest.1).mono (le_of_eq ?_) (le_of_eq ?_), rest.2⟩ <;> ring

theorem gaussRow_true (r c t : Nat) : ∀ N i (A : Mzed), (gaussRow r c t N i A).2 = true → 0 < N
  | 0, _, _, h => by cases h
  | N + 1, _, _, _ => Nat.succ_pos N

/-- the most that searching one column costs, `K` columns being eliminated together -/
def gaussCost (K m n : Nat) : Nat := (m + 1) * (K - 1) * n

theorem costs_gaussCols (r c K : Nat) : ∀ k t (A : Mzed), t + k ≤ K → r + t ≤ m → Shape e m n A →
    Costs (gaussColsC r c m k t A) (gaussCols r c m k t A) (k * (gaussCost K m n + n)) (k * gaussCost K m n) ∧
    Shape e m n (gaussCols r c m k t A).1 ∧ (gaussCols r c m k t A).2 ≤ t + k ∧ r + (gaussCols r c m k t A).2 ≤ m
  | 0, t, A, _, hr, h => ⟨(costs_pure _).mono (Nat.zero_le _) (Nat.zero_le _), h, le_rfl, hr⟩
  | k + 1, t, A, hK, hr, h => by
    unfold gaussColsC gaussCols
    dsimp only
    obtain ⟨c1, s1⟩ := costs_gaussRow r c t (m - (r + t)) (r + t) A h
    have hg := gaussRow_true r c t (m - (r + t)) (r + t) A
    generalize gaussRow r c t (m - (r + t)) (r + t) A = s at c1 s1 hg ⊢
    have b : (m - (r + t)) * (t * n) + t * n ≤ gaussCost K m n := by
      unfold gaussCost
      have : (m - (r + t)) * (t * n) + t * n = (m - (r + t) + 1) * t * n := by ring
      rw [this]
      exact Nat.mul_le_mul_right _ (Nat.mul_le_mul (by omega) (by omega))
    have rest : Costs (if s.2 = true then gaussColsC r c m k (t + 1) s.1 else pure (s.1, t)) (if s.2 = true then gaussCols r c m k (t + 1) s.1 else (s.1, t))
        (k * (gaussCost K m n + n)) (k * gaussCost K m n) ∧
        Shape e m n (if s.2 = true then gaussCols r c m k (t + 1) s.1 else (s.1, t)).1 ∧ (if s.2 = true then gaussCols r c m k (t + 1) s.1 else (s.1, t)).2 ≤ t + (k + 1) ∧
        r + (if s.2 = true then gaussCols r c m k (t + 1) s.1 else (s.1, t)).2 ≤ m := by
      split_ifs with h2
      · have := hg h2
        obtain ⟨a1, a2, a3, a4⟩ := costs_gaussCols r c K k (t + 1) s.1 (by omega) (by omega) s1
        exact ⟨a1, a2, by omega, a4⟩
      · exact ⟨(costs_pure _).mono (Nat.zero_le _) (Nat.zero_le _), s1, by dsimp only; omega, hr⟩
    refine ⟨(costs_bind c1 rest.1).mono ?_ ?_, rest.2⟩
    · rw [Nat.succ_mul k, Nat.succ_mul t]
      omega
    · rw [Nat.succ_mul k]
      omega

theorem costs_njEchLoop (cb : Codebook) (full : Bool) (he : 2 ≤ e) (K : Nat) : ∀ fuel (A : Mzed) (Ts : Nat → Njt) (r c kk : Nat), kk ≤ K → r ≤ m →
    Shape e m n A → (∀ q, TabShape e n (Ts q)) →
    Costs (njEchLoopC cb full fuel A Ts r c kk) (njEchLoop cb full fuel A Ts r c kk) (fuel * (K * (gaussCost K m n + e * n)))
      (fuel * (K * (gaussCost K m n + (e + 2 ^ e + m) * n)))
  | 0, A, Ts, r, c, kk, _, _, _, _ => (costs_pure _).mono (Nat.zero_le _) (Nat.zero_le _)
  | fuel + 1, A, Ts, r, c, kk, hkk, hr, hA, hT => by
    unfold njEchLoopC njEchLoop mzedGaussSubmatrixFull
    by_cases hc : c < A.ncols
    · rw [if_pos hc, if_pos hc]
      dsimp only
      rw [hA.nrows]
      generalize hkk' : (if c + kk > A.ncols then A.ncols - c else kk) = k'
      have hk' : k' ≤ K := by rw [← hkk']; split_ifs <;> omega
      obtain ⟨c1, s1, b1, r1⟩ := costs_gaussCols (n := n) r c K k' 0 A (by omega) (by omega) hA
      generalize gaussCols r c m k' 0 A = g at c1 s1 b1 r1 ⊢
      have hgK : g.2 ≤ K := by omega
      have cg : k' * (gaussCost K m n + n) ≤ K * (gaussCost K m n + n) := Nat.mul_le_mul_right _ hk'
      have cg2 : k' * gaussCost K m n ≤ K * gaussCost K m n := Nat.mul_le_mul_right _ hk'
      have een := mul_e_n he n
      by_cases hb : 1 ≤ g.2 ∧ g.2 ≤ 6
      · obtain ⟨c2, t2⟩ := costs_makeTables (n := n) cb s1.deg he r c 1 g.2 hT
        generalize makeTables cb g.1 r c 1 g.2 Ts = Us at c2 t2
        have st3 : Costs (if g.2 = k' then processRowsC g.1 (r + g.2) g.1.nrows c g.2 Us else pure g.1) (if g.2 = k' then mzedProcessRows g.1 (r + g.2) g.1.nrows c g.2 Us else g.1)
            0 ((m - (r + g.2)) * (g.2 * n)) ∧ Shape e m n (if g.2 = k' then mzedProcessRows g.1 (r + g.2) g.1.nrows c g.2 Us else g.1) := by
          split_ifs
          · exact ⟨by have := costs_processRows s1 (r + g.2) g.1.nrows c g.2 Us; rwa [show g.1.nrows - (r + g.2) = m - (r + g.2) by rw [s1.nrows]] at this, shape_processRows s1 _ _ _ _ _⟩
          · exact ⟨(costs_pure _).mono le_rfl (Nat.zero_le _), s1⟩
        obtain ⟨c3, s3⟩ := st3
        generalize (if g.2 = k' then mzedProcessRows g.1 (r + g.2) g.1.nrows c g.2 Us else g.1) = A3 at c3 s3 ⊢
        have st4 : Costs (if full = true then processRowsC A3 0 r c g.2 Us else pure A3) (if full = true then mzedProcessRows A3 0 r c g.2 Us else A3) 0 (r * (g.2 * n)) ∧
            Shape e m n (if full = true then mzedProcessRows A3 0 r c g.2 Us else A3) := by
          split_ifs
          · exact ⟨costs_processRows s3 _ _ _ _ _, shape_processRows s3 _ _ _ _ _⟩
          · exact ⟨(costs_pure _).mono le_rfl (Nat.zero_le _), s3⟩
        obtain ⟨c4, s4⟩ := st4
        have c5 := costs_njEchLoop cb full he K fuel _ Us (r + g.2) (c + g.2) k' hk' r1 s4 t2
        have := costs_bind c1 (f := fun g => if 1 ≤ g.2 ∧ g.2 ≤ 6 then do
            let Ts ← makeTablesC cb g.1 r c 1 g.2 Ts
            let A ← (if g.2 = k' then processRowsC g.1 (r + g.2) g.1.nrows c g.2 Ts else pure g.1)
            let A ← (if full then processRowsC A 0 r c g.2 Ts else pure A)
            njEchLoopC cb full fuel A Ts (r + g.2) (c + g.2) k'
          else njEchLoopC cb full fuel g.1 Ts (r + g.2) (c + 1 + g.2) k') (by rw [if_pos hb]; exact costs_bind c2 (costs_bind c3 (costs_bind c4 c5)))
        rw [if_pos hb]
        refine this.mono ?_ ?_
        · have h1 : g.2 * ((e - 1) * n) ≤ K * ((e - 1) * n) := Nat.mul_le_mul_right _ hgK
          have h2 : K * (gaussCost K m n + n) + K * ((e - 1) * n) = K * (gaussCost K m n + e * n) := by rw [← een]; ring
          rw [Nat.succ_mul]
          omega
        · have h1 : g.2 * ((e + 2 ^ e) * n) ≤ K * ((e + 2 ^ e) * n) := Nat.mul_le_mul_right _ hgK
          have h2 : (m - (r + g.2)) * (g.2 * n) + r * (g.2 * n) ≤ K * (m * n) := by
            rw [← Nat.add_mul]
            calc (m - (r + g.2) + r) * (g.2 * n) ≤ m * (K * n) := Nat.mul_le_mul (by omega) (Nat.mul_le_mul_right _ hgK)
              _ = K * (m * n) := by ring
          have h3 : K * gaussCost K m n + K * ((e + 2 ^ e) * n) + K * (m * n) = K * (gaussCost K m n + (e + 2 ^ e + m) * n) := by ring
          rw [Nat.succ_mul]
          omega
      · have c5 := costs_njEchLoop cb full he K fuel g.1 Ts (r + g.2) (c + 1 + g.2) k' hk' r1 s1 hT
        have := costs_bind c1 (f := fun g => if 1 ≤ g.2 ∧ g.2 ≤ 6 then do
            let Ts ← makeTablesC cb g.1 r c 1 g.2 Ts
            let A ← (if g.2 = k' then processRowsC g.1 (r + g.2) g.1.nrows c g.2 Ts else pure g.1)
            let A ← (if full then processRowsC A 0 r c g.2 Ts else pure A)
            njEchLoopC cb full fuel A Ts (r + g.2) (c + g.2) k'
          else njEchLoopC cb full fuel g.1 Ts (r + g.2) (c + 1 + g.2) k') (by rw [if_neg hb]; exact c5)
        rw [if_neg hb]
        refine this.mono ?_ ?_
        · have h1 : K * (gaussCost K m n + n) ≤ K * (gaussCost K m n + e * n) := Nat.mul_le_mul_left _ (by rw [← een]; omega)
          rw [Nat.succ_mul]
          omega
        · have h1 : K * gaussCost K m n ≤ K * (gaussCost K m n + (e + 2 ^ e + m) * n) := Nat.mul_le_mul_left _ (Nat.le_add_right _ _)
          rw [Nat.succ_mul]
          omega
    · rw [if_neg hc, if_neg hc]
      exact (costs_pure _).mono (Nat.zero_le _) (Nat.zero_le _)

end M4rie
