import Verif.Model.TrsmRec
import Verif.Proofs.Trsm
import Verif.Proofs.KaraMul
import Verif.Proofs.SliceRow

/-! # Block-recursive triangular solving, on entries; sliced solvers -/

namespace M4rie
open M4rie.Spec

variable {ff : Gf2e} [IsField ff]

/-- `X` is `B` with the solution of the lower triangular system written into it -/
structure SolL (L B X : Mat ff) : Prop where
  same : SameMat X B
  frame : Frame X B
  solves : SolvesLower B.nrows B.ncols L.e X.e B.e

/-- `X` is `B` with the solution of the upper triangular system written into it -/
structure SolU (U B X : Mat ff) : Prop where
  same : SameMat X B
  frame : Frame X B
  solves : SolvesUpper B.nrows B.ncols U.e X.e B.e

/-- what the recursion needs to know about the operations: `pk` stores a matrix -/
structure TrsmLaws {τ : Type} (pk : Mat ff → τ) (ops : TrsmOps τ) : Prop where
  nrows : ∀ X, ops.nrows (pk X) = X.nrows
  ncols : ∀ X, ops.ncols (pk X) = X.ncols
  window : ∀ X lr lc hr hc, lc % 64 = 0 → ops.window (pk X) lr lc hr hc = pk (X.window lr lc hr hc)
  onWindow : ∀ (X : Mat ff) lr lc hr hc f (W : Mat ff), lc % 64 = 0 → f (pk (X.window lr lc hr hc)) = some (pk W) →
    ops.onWindow (pk X) lr lc hr hc f = some (pk (X.unwindow lr lc W))
  addmul : ∀ C A B : Mat ff, C.nrows = A.nrows → C.ncols = B.ncols → A.ncols = B.nrows → A.fid = B.fid → C.fid = A.fid → 0 < B.ncols →
    ops.addmul (pk C) (pk A) (pk B) = some (pk (C.addMulM A B))
  lower : ∀ L B : Mat ff, L.nrows = B.nrows → L.ncols = B.nrows → 0 < B.ncols → (∀ i, i < B.nrows → L.e i i ≠ 0) →
    ∃ X, ops.lowerNj (pk L) (pk B) = some (pk X) ∧ SolL L B X
  upper : ∀ U B : Mat ff, U.nrows = B.nrows → U.ncols = B.nrows → 0 < B.ncols → (∀ i, i < B.nrows → U.e i i ≠ 0) →
    ∃ X, ops.upperNj (pk U) (pk B) = some (pk X) ∧ SolU U B X

theorem trsmSplit_spec {n : Nat} (h : 64 < n) : trsmSplit n % 64 = 0 ∧ 0 < trsmSplit n ∧ trsmSplit n < n := by
  unfold trsmSplit
  omega

theorem unwindow_zero_e (B W : Mat ff) (i j : Nat) : (B.unwindow 0 0 W).e i j = W.e i j := by simp [Mat.unwindow]

/-- the block step of forward substitution -/
theorem SolL.block {L B X0 X1 : Mat ff} {c : Nat} (hc : c ≤ B.nrows)
    (h0 : SolL (L.window 0 0 c c) (B.window 0 0 c B.ncols) X0)
    (h1 : SolL (L.window c c B.nrows B.nrows)
      ((((B.unwindow 0 0 X0).unwindow c 0 (((B.unwindow 0 0 X0).window c 0 B.nrows B.ncols).addMulM (L.window c 0 B.nrows c)
        ((B.unwindow 0 0 X0).window 0 0 c B.ncols)))).window c 0 B.nrows B.ncols) X1) :
    SolL L B (((B.unwindow 0 0 X0).unwindow c 0 (((B.unwindow 0 0 X0).window c 0 B.nrows B.ncols).addMulM (L.window c 0 B.nrows c)
        ((B.unwindow 0 0 X0).window 0 0 c B.ncols))).unwindow c 0 X1) := by
  have e0 : ∀ i j, (B.unwindow 0 0 X0).e i j = X0.e i j := fun i j => by simp [Mat.unwindow]
  have f0 : ∀ i j, ¬ (i < c ∧ j < B.ncols) → X0.e i j = B.e i j := fun i j h => by
    have := h0.frame i j (by simpa [Mat.window] using h)
    simpa [Mat.window] using this
  set B2 := (B.unwindow 0 0 X0).unwindow c 0 (((B.unwindow 0 0 X0).window c 0 B.nrows B.ncols).addMulM (L.window c 0 B.nrows c)
        ((B.unwindow 0 0 X0).window 0 0 c B.ncols)) with hB2
  have e2l : ∀ i j, i < c → B2.e i j = X0.e i j := fun i j h => by
    rw [hB2, ← e0 i j]
    exact if_neg (by omega)
  have e2h : ∀ i j, c ≤ i → B2.e i j = if i < B.nrows ∧ j < B.ncols then B.e i j + ∑ k ∈ Finset.range c, L.e i k * X0.e k j else B.e i j := by
    intro i j h
    rw [hB2]
    refine (if_pos ⟨h, Nat.zero_le _⟩).trans ?_
    simp only [Mat.addMulM, Mat.window, e0, Nat.zero_add, Nat.sub_zero, Nat.add_sub_cancel' h]
    by_cases hij : i < B.nrows ∧ j < B.ncols
    · rw [if_pos hij, if_pos (by omega), f0 i j (by omega)]
    · rw [if_neg hij, if_neg (by omega), f0 i j (by omega)]
  have f1 : ∀ i j, ¬ (i < B.nrows - c ∧ j < B.ncols) → X1.e i j = B.e (c + i) j := fun i j h => by
    have := h1.frame i j (by simpa [Mat.window] using h)
    simp only [Mat.window, Nat.zero_add] at this
    rw [this, e2h _ _ (by omega), if_neg (by omega)]
  have eX : ∀ i j, (B2.unwindow c 0 X1).e i j = if c ≤ i then X1.e (i - c) j else X0.e i j := by
    intro i j
    by_cases h : c ≤ i
    · rw [if_pos h]; exact if_pos ⟨h, Nat.zero_le _⟩
    · rw [if_neg h, ← e2l i j (by omega)]; exact if_neg (by omega)
  refine ⟨⟨rfl, rfl, rfl⟩, ?_, ?_⟩
  · intro i j h
    rw [eX]
    split_ifs with hi
    · rw [f1 _ _ (by omega)]; congr 1; omega
    · exact f0 _ _ (by omega)
  · intro i j hi hj
    by_cases h : c ≤ i
    · have h2 := h1.solves (i - c) j (by show i - c < B.nrows - c; omega) (by simpa [Mat.window] using hj)
      simp only [Mat.window, Nat.zero_add] at h2
      rw [e2h _ _ (by omega), if_pos (by omega), Nat.add_sub_cancel' h] at h2
      rw [show i + 1 = c + (i - c + 1) by omega, Finset.sum_range_add,
        Finset.sum_congr rfl (fun k hk => by rw [eX, if_neg (by have := Finset.mem_range.1 hk; omega)]),
        Finset.sum_congr (s₁ := Finset.range (i - c + 1)) rfl (fun k _ => by rw [eX, if_pos (by omega), Nat.add_sub_cancel_left]), h2,
        add_comm (B.e i j), ← add_assoc, elem_add_self, zero_add]
    · have h2 := h0.solves i j (by show i < c - 0; omega) (by simpa [Mat.window] using hj)
      simp only [Mat.window, Nat.zero_add] at h2
      rw [Finset.sum_congr rfl (fun k hk => by rw [eX, if_neg (by have := Finset.mem_range.1 hk; omega)]), h2]

/-- the block step of backward substitution -/
theorem SolU.block {L B X0 X1 : Mat ff} {c : Nat} (hc : c ≤ B.nrows)
    (h1 : SolU (L.window c c B.nrows B.nrows) (B.window c 0 B.nrows B.ncols) X1)
    (h0 : SolU (L.window 0 0 c c)
      (((B.unwindow c 0 X1).unwindow 0 0 (((B.unwindow c 0 X1).window 0 0 c B.ncols).addMulM (L.window 0 c c B.nrows)
        ((B.unwindow c 0 X1).window c 0 B.nrows B.ncols))).window 0 0 c B.ncols) X0) :
    SolU L B (((B.unwindow c 0 X1).unwindow 0 0 (((B.unwindow c 0 X1).window 0 0 c B.ncols).addMulM (L.window 0 c c B.nrows)
        ((B.unwindow c 0 X1).window c 0 B.nrows B.ncols))).unwindow 0 0 X0) := by
  have f1 : ∀ i j, ¬ (i < B.nrows - c ∧ j < B.ncols) → X1.e i j = B.e (c + i) j := fun i j h => by
    have := h1.frame i j (by simpa [Mat.window] using h)
    simpa [Mat.window] using this
  have e1 : ∀ i j, (B.unwindow c 0 X1).e i j = if c ≤ i then X1.e (i - c) j else B.e i j := by
    intro i j
    simp only [Mat.unwindow, Nat.zero_le, and_true, Nat.sub_zero]
  set B2 := (B.unwindow c 0 X1).unwindow 0 0 (((B.unwindow c 0 X1).window 0 0 c B.ncols).addMulM (L.window 0 c c B.nrows)
        ((B.unwindow c 0 X1).window c 0 B.nrows B.ncols)) with hB2
  have e2 : ∀ i j, B2.e i j = if i < c ∧ j < B.ncols then B.e i j + ∑ k ∈ Finset.range (B.nrows - c), L.e i (c + k) * X1.e k j else
      if c ≤ i then X1.e (i - c) j else B.e i j := by
    intro i j
    rw [hB2]
    rw [unwindow_zero_e]
    simp only [Mat.addMulM, Mat.window, e1, Nat.zero_add, Nat.sub_zero]
    by_cases hij : i < c ∧ j < B.ncols
    · rw [if_pos hij, if_pos hij, if_neg (by omega)]
      congr 1
      exact Finset.sum_congr rfl fun k _ => by rw [if_pos (by omega), Nat.add_sub_cancel_left]
    · rw [if_neg hij, if_neg hij]
  have eX : ∀ i j, (B2.unwindow 0 0 X0).e i j = X0.e i j := fun i j => by simp [Mat.unwindow]
  have f0 : ∀ i j, ¬ (i < c ∧ j < B.ncols) → X0.e i j = if c ≤ i then X1.e (i - c) j else B.e i j := fun i j h => by
    have := h0.frame i j (by simpa [Mat.window] using h)
    simp only [Mat.window, Nat.zero_add] at this
    rw [this, e2, if_neg h]
  refine ⟨⟨rfl, rfl, rfl⟩, ?_, ?_⟩
  · intro i j h
    rw [eX, f0 _ _ (by omega)]
    split_ifs with hi
    · rw [f1 _ _ (by omega)]; congr 1; omega
    · rfl
  · intro i j hi hj
    simp only [eX]
    have hhi : ∀ a, c ≤ a → X0.e a j = X1.e (a - c) j := fun a ha => by rw [f0 _ _ (by omega), if_pos ha]
    by_cases h : c ≤ i
    · have h2 := h1.solves (i - c) j (by show i - c < B.nrows - c; omega) (by simpa [Mat.window] using hj)
      simp only [Mat.window, Nat.zero_add, Nat.add_sub_cancel' h] at h2
      rw [← h2]
      have : Finset.Ico i B.nrows = (Finset.Ico (i - c) (B.nrows - c)).map (addLeftEmbedding c) := by
        rw [Finset.map_add_left_Ico]; congr 1 <;> omega
      rw [this, Finset.sum_map]
      refine Finset.sum_congr rfl fun k hk => ?_
      rw [addLeftEmbedding_apply, hhi _ (by omega), Nat.add_sub_cancel_left]
    · have h2 := h0.solves i j (by show i < c - 0; omega) (by simpa [Mat.window] using hj)
      simp only [Mat.window, Nat.zero_add, Nat.sub_zero] at h2
      rw [e2, if_pos (by omega)] at h2
      rw [← Finset.sum_Ico_consecutive _ (by omega : i ≤ c) hc, h2]
      have : Finset.Ico c B.nrows = (Finset.Ico 0 (B.nrows - c)).map (addLeftEmbedding c) := by
        rw [Finset.map_add_left_Ico]; congr 1; omega
      rw [this, Finset.sum_map, Finset.range_eq_Ico]
      simp only [addLeftEmbedding_apply]
      have e3 : ∀ k, X0.e (c + k) j = X1.e k j := fun k => by rw [hhi _ (by omega), Nat.add_sub_cancel_left]
      simp only [e3]
      rw [add_assoc, elem_add_self, add_zero]

section
variable {τ : Type} {pk : Mat ff → τ} {ops : TrsmOps τ} (hops : TrsmLaws pk ops) {cutoff : Int} (hcut : 64 ≤ cutoff)
include hops hcut

theorem trsmLowerF_pk : ∀ (fuel : Nat) (L B : Mat ff), B.nrows < fuel → L.nrows = B.nrows → L.ncols = B.nrows → L.fid = B.fid → 0 < B.ncols →
    (∀ i, i < B.nrows → L.e i i ≠ 0) → ∃ X, trsmLowerF ops cutoff fuel (pk L) (pk B) = some (pk X) ∧ SolL L B X
  | 0, _, _, h, _, _, _, _, _ => absurd h (by omega)
  | fuel + 1, L, B, hf, hr, hc, hid, hn, hd => by
    rw [trsmLowerF]
    by_cases hb : (ops.nrows (pk L) : Int) ≤ cutoff ∨ (ops.ncols (pk B) : Int) ≤ cutoff
    · rw [if_pos hb]; exact hops.lower L B hr hc hn hd
    rw [if_neg hb, hops.nrows, hops.nrows, hops.ncols]
    rw [hops.nrows, hops.ncols] at hb
    have hs := trsmSplit_spec (n := L.nrows) (by omega)
    set c := trsmSplit L.nrows
    simp only
    rw [if_neg (by omega)]
    obtain ⟨X0, r0, s0⟩ := trsmLowerF_pk fuel (L.window 0 0 c c) (B.window 0 0 c B.ncols) (by simp; omega) (by simp) (by simp) hid (by simpa using hn)
      (fun i hi => by simp at hi; simpa [Mat.window] using hd i (by omega))
    rw [hops.onWindow B 0 0 c B.ncols _ X0 rfl (by rw [hops.window L 0 0 c c rfl]; exact r0), Option.bind_some]
    rw [hops.onWindow (B.unwindow 0 0 X0) c 0 B.nrows B.ncols _
      (((B.unwindow 0 0 X0).window c 0 B.nrows B.ncols).addMulM (L.window c 0 B.nrows c) ((B.unwindow 0 0 X0).window 0 0 c B.ncols)) rfl (by
        rw [hops.window L c 0 _ _ rfl, hops.window _ 0 0 _ _ rfl]
        exact hops.addmul _ _ _ (by simp) (by simp) (by simp) hid hid.symm (by simpa using hn)), Option.bind_some]
    obtain ⟨X1, r1, s1⟩ := trsmLowerF_pk fuel (L.window c c B.nrows B.nrows)
      ((((B.unwindow 0 0 X0).unwindow c 0 (((B.unwindow 0 0 X0).window c 0 B.nrows B.ncols).addMulM (L.window c 0 B.nrows c)
        ((B.unwindow 0 0 X0).window 0 0 c B.ncols)))).window c 0 B.nrows B.ncols) (by simp; omega) (by simp) (by simp) hid (by simpa using hn)
      (fun i hi => by simp at hi; simpa [Mat.window] using hd (c + i) (by omega))
    refine ⟨_, hops.onWindow _ c 0 _ _ _ X1 rfl ?_, SolL.block (by omega) s0 s1⟩
    rw [hops.window L c c _ _ hs.1]; exact r1

theorem trsmUpperF_pk : ∀ (fuel : Nat) (L B : Mat ff), B.nrows < fuel → L.nrows = B.nrows → L.ncols = B.nrows → L.fid = B.fid → 0 < B.ncols →
    (∀ i, i < B.nrows → L.e i i ≠ 0) → ∃ X, trsmUpperF ops cutoff fuel (pk L) (pk B) = some (pk X) ∧ SolU L B X
  | 0, _, _, h, _, _, _, _, _ => absurd h (by omega)
  | fuel + 1, L, B, hf, hr, hc, hid, hn, hd => by
    rw [trsmUpperF]
    by_cases hb : (ops.nrows (pk L) : Int) ≤ cutoff ∨ (ops.ncols (pk B) : Int) ≤ cutoff
    · rw [if_pos hb]; exact hops.upper L B hr hc hn hd
    rw [if_neg hb, hops.nrows, hops.nrows, hops.ncols]
    rw [hops.nrows, hops.ncols] at hb
    have hs := trsmSplit_spec (n := L.nrows) (by omega)
    set c := trsmSplit L.nrows
    simp only
    rw [if_neg (by omega)]
    obtain ⟨X1, r1, s1⟩ := trsmUpperF_pk fuel (L.window c c B.nrows B.nrows) (B.window c 0 B.nrows B.ncols) (by simp; omega) (by simp) (by simp) hid
      (by simpa using hn) (fun i hi => by simp at hi; simpa [Mat.window] using hd (c + i) (by omega))
    rw [hops.onWindow B c 0 B.nrows B.ncols _ X1 rfl (by rw [hops.window L c c _ _ hs.1]; exact r1), Option.bind_some]
    rw [hops.onWindow (B.unwindow c 0 X1) 0 0 c B.ncols _
      (((B.unwindow c 0 X1).window 0 0 c B.ncols).addMulM (L.window 0 c c B.nrows) ((B.unwindow c 0 X1).window c 0 B.nrows B.ncols)) rfl (by
        rw [hops.window L 0 c _ _ hs.1, hops.window _ c 0 _ _ rfl]
        exact hops.addmul _ _ _ (by simp) (by simp) (by simp) hid hid.symm (by simpa using hn)), Option.bind_some]
    obtain ⟨X0, r0, s0⟩ := trsmUpperF_pk fuel (L.window 0 0 c c)
      (((B.unwindow c 0 X1).unwindow 0 0 (((B.unwindow c 0 X1).window 0 0 c B.ncols).addMulM (L.window 0 c c B.nrows)
        ((B.unwindow c 0 X1).window c 0 B.nrows B.ncols))).window 0 0 c B.ncols) (by simp; omega) (by simp) (by simp) hid (by simpa using hn)
      (fun i hi => by simp at hi; simpa [Mat.window] using hd i (by omega))
    refine ⟨_, hops.onWindow _ 0 0 _ _ _ X0 rfl ?_, SolU.block (by omega) s1 s0⟩
    rw [hops.window L 0 0 _ _ rfl]; exact r0
end

/-! ### the packed instance -/

theorem onWindow_unpack {C : Mat ff} {lr lc hr hc : Nat} {f : Mzed → Option Mzed} {W : Mat ff} (ha : degreeToW ff.degree * lc % 64 = 0)
    (h : f (C.window lr lc hr hc).pack = some W.pack) : onWindow C.pack lr lc hr hc f = some (C.unwindow lr lc W).pack := by
  unfold onWindow
  rw [window_pack _ _ _ _ _ ha, h, Option.map_some, pack_w]
  exact congrArg some (windowWrite_pack _ _ _ _ ha)

theorem mul_mod_64 {w c : Nat} (h : c % 64 = 0) : w * c % 64 = 0 := by
  rw [Nat.mul_mod, h, Nat.mul_zero, Nat.zero_mod]

theorem mzedTrsmLaws {env : MulEnv} (henv : env.Ok ff.degree) : TrsmLaws (ff := ff) Mat.pack (mzedTrsmOps env) where
  nrows _ := rfl
  ncols _ := rfl
  window X lr lc hr hc h := window_pack X lr lc hr hc (mul_mod_64 h)
  onWindow X lr lc hr hc f W h hf := onWindow_unpack (mul_mod_64 h) hf
  addmul C A B h1 h2 h3 h4 h5 hn := by
    show (mzedMulInit? C.pack A.pack B.pack false).bind _ = _
    unfold mzedMulInit?
    rw [if_neg (by simp only [pack_ncols, pack_nrows, pack_fid]; tauto), if_neg (by simp only [pack_ncols, pack_nrows, pack_fid]; tauto)]
    exact addmulRaw_pack henv C A B h1 h2 h3 hn
  lower L B _ _ hn hd := by
    obtain ⟨X, e, h⟩ := trsmLowerNj_pack henv.cb L B hn hd
    exact ⟨X, congrArg some e, h.1, h.2.1, h.2.2⟩
  upper U B _ _ hn hd := by
    obtain ⟨X, e, h⟩ := trsmUpperNj_pack henv.cb U B hn hd
    exact ⟨X, congrArg some e, h.1, h.2.1, h.2.2⟩

/-! ### the sliced instance -/

theorem SolL.of_trim {L L' B Y : Mat ff} (hL : ∀ i k, i < B.nrows → k ≤ i → L'.e i k = L.e i k) (h : SolL L' B.trim Y) : SolL L B (B.copyM Y) := by
  have hnr : Y.nrows = B.nrows := h.same.nrows
  have hnc : Y.ncols = B.ncols := h.same.ncols
  refine ⟨⟨rfl, rfl, rfl⟩, fun i j hij => if_neg (by rw [hnr, hnc]; exact hij), fun i j hi hj => ?_⟩
  have := h.solves i j hi hj
  rw [show B.trim.e i j = B.e i j from if_pos ⟨hi, hj⟩] at this
  rw [← this]
  refine Finset.sum_congr rfl fun k hk => ?_
  have hk := Finset.mem_range.1 hk
  rw [hL i k hi (by omega), show (B.copyM Y).e k j = Y.e k j from if_pos (by rw [hnr, hnc]; omega)]

theorem SolU.of_trim {L L' B Y : Mat ff} (hL : ∀ i k, i < B.nrows → k < B.nrows → L'.e i k = L.e i k) (h : SolU L' B.trim Y) : SolU L B (B.copyM Y) := by
  have hnr : Y.nrows = B.nrows := h.same.nrows
  have hnc : Y.ncols = B.ncols := h.same.ncols
  refine ⟨⟨rfl, rfl, rfl⟩, fun i j hij => if_neg (by rw [hnr, hnc]; exact hij), fun i j hi hj => ?_⟩
  have := h.solves i j hi hj
  rw [show B.trim.e i j = B.e i j from if_pos ⟨hi, hj⟩] at this
  rw [← this]
  refine Finset.sum_congr rfl fun k hk => ?_
  have hk := Finset.mem_Ico.1 hk
  have hkB : B.trim.nrows = B.nrows := rfl
  rw [hL i k hi (by omega), show (B.copyM Y).e k j = Y.e k j from if_pos (by rw [hnr, hnc]; omega)]

theorem sliceTrsmLowerNaive_spack (L B : Mat ff) (hr : L.nrows = B.nrows) (hc : L.ncols = B.nrows) (hB : 0 < B.ncols)
    (hd : ∀ i, i < B.nrows → L.e i i ≠ 0) : ∃ X : Mat ff, mzdSliceTrsmLowerLeftNaive? L.spack B.spack = some X.spack ∧ SolL L B X := by
  have ht : ∀ i k, i < B.nrows → k < B.nrows → L.trim.e i k = L.e i k := fun i k hi hk => if_pos (by omega)
  obtain ⟨Y, e, h1, h2, h3⟩ := trsmLowerNaive_pack L.trim B.trim hB (fun i hi => by rw [ht i i hi hi]; exact hd i hi)
  refine ⟨B.copyM Y, ?_, SolL.of_trim (fun i k hi hk => ht i k hi (by omega)) ⟨h1, h2, h3⟩⟩
  unfold mzdSliceTrsmLowerLeftNaive?
  rw [clingNew_pack, Option.bind_some, clingNew_pack, Option.bind_some, e]
  exact slice_spack B Y h1.nrows.symm h1.ncols.symm

theorem sliceTrsmUpperNaive_spack (L B : Mat ff) (hr : L.nrows = B.nrows) (hc : L.ncols = B.nrows) (hB : 0 < B.ncols)
    (hd : ∀ i, i < B.nrows → L.e i i ≠ 0) : ∃ X : Mat ff, mzdSliceTrsmUpperLeftNaive? L.spack B.spack = some X.spack ∧ SolU L B X := by
  have ht : ∀ i k, i < B.nrows → k < B.nrows → L.trim.e i k = L.e i k := fun i k hi hk => if_pos (by omega)
  obtain ⟨Y, e, h1, h2, h3⟩ := trsmUpperNaive_pack L.trim B.trim hB (fun i hi => by rw [ht i i hi hi]; exact hd i hi)
  refine ⟨B.copyM Y, ?_, SolU.of_trim ht ⟨h1, h2, h3⟩⟩
  unfold mzdSliceTrsmUpperLeftNaive?
  rw [clingNew_pack, Option.bind_some, clingNew_pack, Option.bind_some, e]
  exact slice_spack B Y h1.nrows.symm h1.ncols.symm

theorem sliceTrsmLowerNj_spack {cb : Codebook} (hcb : cb.Ok ff.degree) (L B : Mat ff) (hr : L.nrows = B.nrows) (hc : L.ncols = B.nrows)
    (hB : 0 < B.ncols) (hd : ∀ i, i < B.nrows → L.e i i ≠ 0) :
    ∃ X : Mat ff, mzdSliceTrsmLowerLeftNewtonJohn? cb L.spack B.spack = some X.spack ∧ SolL L B X := by
  unfold mzdSliceTrsmLowerLeftNewtonJohn?
  by_cases hdeg : 2 ^ L.spack.ff.degree ≥ L.spack.nrows
  · rw [if_pos hdeg]; exact sliceTrsmLowerNaive_spack L B hr hc hB hd
  rw [if_neg hdeg]
  obtain ⟨Y, e, h1, h2, h3⟩ := trsmLowerNj_pack hcb L B.trim hB hd
  refine ⟨B.copyM Y, ?_, SolL.of_trim (fun i k hi hk => rfl) ⟨h1, h2, h3⟩⟩
  unfold mzedTrsmLowerLeftNewtonJohn at e
  rw [if_neg (by exact hdeg)] at e
  simp only [read_pack] at e
  rw [clingNew_pack, Option.bind_some]
  simp only [sliceRead_spack]
  refine Eq.trans ?_ (slice_spack B Y h1.nrows.symm h1.ncols.symm)
  rw [← e]
  rfl

theorem sliceTrsmUpperNj_spack {cb : Codebook} (hcb : cb.Ok ff.degree) (L B : Mat ff) (hr : L.nrows = B.nrows) (hc : L.ncols = B.nrows)
    (hB : 0 < B.ncols) (hd : ∀ i, i < B.nrows → L.e i i ≠ 0) :
    ∃ X : Mat ff, mzdSliceTrsmUpperLeftNewtonJohn? cb L.spack B.spack = some X.spack ∧ SolU L B X := by
  unfold mzdSliceTrsmUpperLeftNewtonJohn?
  by_cases hdeg : 2 ^ L.spack.ff.degree ≥ L.spack.nrows
  · rw [if_pos hdeg]; exact sliceTrsmUpperNaive_spack L B hr hc hB hd
  rw [if_neg hdeg]
  obtain ⟨Y, e, h1, h2, h3⟩ := trsmUpperNj_pack hcb L B.trim hB hd
  refine ⟨B.copyM Y, ?_, SolU.of_trim (fun i k hi hk => rfl) ⟨h1, h2, h3⟩⟩
  unfold mzedTrsmUpperLeftNewtonJohn at e
  rw [if_neg (by exact hdeg)] at e
  simp only [read_pack] at e
  rw [clingNew_pack, Option.bind_some]
  simp only [sliceRead_spack]
  refine Eq.trans ?_ (slice_spack B Y h1.nrows.symm h1.ncols.symm)
  rw [← e]
  rfl

theorem sliceTrsmLaws {cb : Codebook} (hcb : cb.Ok ff.degree) : TrsmLaws (ff := ff) Mat.spack (sliceTrsmOps cb) where
  nrows _ := rfl
  ncols _ := rfl
  window X lr lc hr hc h := sliceWindow_spack X lr lc hr hc h
  onWindow X lr lc hr hc f W h hf := onSWindow_spack X lr lc hr hc h hf
  addmul C A B h1 h2 h3 h4 h5 _ := by
    show mzdSliceAddmulKaratsuba? C.spack A.spack B.spack = _
    unfold mzdSliceAddmulKaratsuba?
    rw [if_neg (by simp only [spack_ncols, spack_nrows, spack_fid]; tauto), if_neg (by simp only [spack_ncols, spack_nrows, spack_fid]; tauto)]
    exact sliceAddmulKara_spack C A B h1 h2
  lower L B hr hc hn hd := sliceTrsmLowerNj_spack hcb L B hr hc hn hd
  upper U B hr hc hn hd := sliceTrsmUpperNj_spack hcb U B hr hc hn hd

end M4rie
