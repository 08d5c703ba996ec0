import Verif.Proofs.PleRec

/-! # Recursive PLE decomposition: the induction -/

namespace M4rie
open M4rie.Spec

theorem qcopy {r n : Nat} (h : r ≤ n) (Q : Nat → Nat) :
    ∀ m i, forN (fun t Q => setNat Q (r + t) (Q (n + t))) m Q i = if r ≤ i ∧ i < r + m then Q (n + (i - r)) else Q i
  | 0, i => by rw [if_neg (by omega)]; rfl
  | m + 1, i => by
    show (if i = r + m then forN (fun t Q => setNat Q (r + t) (Q (n + t))) m Q (n + m) else forN (fun t Q => setNat Q (r + t) (Q (n + t))) m Q i) = _
    by_cases hi : i = r + m
    · subst hi
      rw [if_pos rfl, qcopy h Q m, if_neg (by omega), if_pos (by omega), Nat.add_sub_cancel_left]
    · rw [if_neg hi, qcopy h Q m]
      split_ifs <;> first | rfl | omega

theorem pleMergeQ_e {ncols r1 n1 r2 : Nat} (h : r1 ≤ n1) (Q Q2 : Nat → Nat) (i : Nat) :
    pleMergeQ ncols r1 n1 r2 Q Q2 i = if r1 ≤ i ∧ i < r1 + r2 then (if i - r1 < ncols - n1 then Q2 (i - r1) + n1 else Q2 (i - r1))
      else if i < n1 then Q i else if i - n1 < ncols - n1 then Q2 (i - n1) + n1 else Q2 (i - n1) := by
  unfold pleMergeQ
  rw [qcopy h]
  split_ifs with h1 h2 <;> simp_all <;> omega

variable {ff : Gf2e} [IsField ff]

theorem mzdSlicePleF_spack {env : PleEnv} (hc : CompressOk env.compress) (hcb : env.cb.Ok ff.degree) :
    ∀ fuel (X : Mat ff) P Q, X.ncols < fuel → SPleOk X P Q (mzdSlicePleF env fuel X.spack P Q)
  | 0, _, _, _, h => absurd h (by omega)
  | fuel + 1, X, P, Q, hf => by
    unfold mzdSlicePleF
    show SPleOk X P Q (if X.ncols ≤ 64 ∨ env.small X.nrows X.ncols = true then _ else _)
    by_cases hb : X.ncols ≤ 64 ∨ env.small X.nrows X.ncols = true
    · rw [if_pos hb]; exact slicePleBase_spack hcb X P Q
    rw [if_neg hb]
    simp only [spack_nrows, spack_ncols]
    obtain ⟨hn64, hn0, hn⟩ := pleSplit_spec (n := X.ncols) (by omega)
    set n1 := pleSplit X.ncols with hn1
    rw [sliceWindow_spack X 0 0 _ _ rfl]
    obtain ⟨Z1, P1, Q1, r1, e1, s1, d1, f1, p1, q1, i1⟩ := mzdSlicePleF_spack hc hcb fuel (X.window 0 0 X.nrows n1) P Q
      (by simp; omega)
    simp only [Mat.window_nrows, Mat.window_ncols, Nat.sub_zero] at s1 d1 f1 p1 q1 i1
    rw [e1, Option.bind_some]
    simp only [sliceSetWindow_spack X Z1 0 0 rfl]
    set A1 := X.unwindow 0 0 Z1 with hA1
    have eA1 : ∀ i j, A1.e i j = Z1.e i j := fun i j => unwindow_zero_e X Z1 i j
    have fA1 : ∀ i j, ¬ (i < X.nrows ∧ j < n1) → A1.e i j = X.e i j := fun i j h => by
      rw [eA1, f1 i j (by simpa using h)]; simp [Mat.window]
    have d1' : IsPLE X.nrows n1 r1 X.e A1.e P1 Q1 := IsPLE_congr d1 (fun i j _ _ => by simp [Mat.window]) (fun i j _ _ => eA1 i j)
    have hle1 := d1.le
    have hrle1 := d1.rle
    obtain ⟨A2, eS, sS, fS, hX, hS⟩ := pleSchur_spack hcb A1 P1 (r := r1) (n := n1) d1.le d1.rle hn hn64 (fun i hi => (d1.perm i hi).2)
      i1 d1'.diag
    change SameMat A2 A1 at sS
    change ∀ i j, ¬ (i < X.nrows ∧ n1 ≤ j ∧ j < X.ncols) → A2.e i j = A1.e i j at fS
    rw [eS, Option.bind_some]
    have nA2 : A2.nrows = X.nrows := sS.nrows
    have cA2 : A2.ncols = X.ncols := sS.ncols
    rw [sliceWindow_spack A2 r1 n1 _ _ hn64]
    obtain ⟨Z2, P2, Q2, r2, e2, s2, d2, f2, p2, q2, i2⟩ := mzdSlicePleF_spack hc hcb fuel (A2.window r1 n1 X.nrows X.ncols)
      (fun i => P1 (r1 + i)) (fun i => Q1 (n1 + i)) (by simp; omega)
    simp only [Mat.window_nrows, Mat.window_ncols] at s2 d2 f2 p2 q2 i2
    rw [e2, Option.bind_some]
    simp only [sliceSetWindow_spack A2 Z2 r1 n1 hn64]
    set A3 := A2.unwindow r1 n1 Z2 with hA3
    rw [sliceWindow_spack A3 r1 0 _ _ rfl, sliceApplyPLeft_spack, sliceSetWindow_spack _ _ _ _ rfl]
    simp only [Mat.window_nrows, Nat.min_self]
    set σ := rowPerm P2 (X.nrows - r1) with hσ
    set A4 := A3.unwindow r1 0 ((A3.window r1 0 X.nrows r1).rowsBy σ) with hA4
    have hle2 := d2.le
    have hrle2 := d2.rle
    have hσlt : ∀ s, s < X.nrows - r1 → σ s < X.nrows - r1 := fun s hs =>
      rowPerm_lt _ le_rfl (fun i hi => (d2.perm i hi).2) s hs
    have hσge : ∀ s, X.nrows - r1 ≤ s → σ s = s := fun s hs => rowPerm_ge _ le_rfl (fun i hi => (d2.perm i hi).2) s hs
    have fz2 : ∀ s j, ¬ (s < X.nrows - r1 ∧ j < X.ncols - n1) → Z2.e s j = A2.e (r1 + s) (n1 + j) := fun s j h => by
      have := f2 s j (by simpa using h)
      simpa [Mat.window] using this
    have eA3 : ∀ i j, A3.e i j = if r1 ≤ i ∧ n1 ≤ j then Z2.e (i - r1) (j - n1) else A2.e i j := fun i j => by
      rw [hA3]; rfl
    have eA4 : ∀ i j, A4.e i j = if r1 ≤ i ∧ j < r1 then A3.e (r1 + σ (i - r1)) j else A3.e i j := by
      intro i j
      rw [hA4]
      simp only [Mat.unwindow, Mat.rowsBy, Mat.window, Nat.zero_le, and_true, Nat.sub_zero, Nat.zero_add]
      by_cases h1 : r1 ≤ i
      · rw [if_pos h1]
        by_cases h2 : j < r1
        · rw [if_pos h2, if_pos ⟨h1, h2⟩]
        · rw [if_neg h2, if_neg (by omega), Nat.add_sub_cancel' h1]
      · rw [if_neg h1, if_neg (by omega)]
    -- entries of A4
    have b00 : ∀ i j, i < r1 → j < n1 → A4.e i j = A1.e i j := fun i j hi hj => by
      rw [eA4, if_neg (by omega), eA3, if_neg (by omega), fS i j (by omega)]
    have b01 : ∀ i j, i < r1 → A4.e i (n1 + j) = A2.e i (n1 + j) := fun i j hi => by
      rw [eA4, if_neg (by omega), eA3, if_neg (by omega)]
    have b10 : ∀ s j, j < r1 → A4.e (r1 + s) j = A1.e (r1 + σ s) j := fun s j hj => by
      rw [eA4, if_pos (by omega), eA3, if_neg (by omega), fS _ j (by omega), Nat.add_sub_cancel_left]
    have bz : ∀ i j, r1 ≤ i → i < X.nrows → r1 ≤ j → j < n1 → A4.e i j = 0 := fun i j hi hi' hj hj' => by
      rw [eA4, if_neg (by omega), eA3, if_neg (by omega), fS _ j (by omega)]
      exact d1'.rest i j hi hi' hj hj'
    have b11 : ∀ s j, A4.e (r1 + s) (n1 + j) = Z2.e s j := fun s j => by
      rw [eA4, if_neg (by omega), eA3, if_pos (by omega), Nat.add_sub_cancel_left, Nat.add_sub_cancel_left]
    have nA4 : A4.nrows = X.nrows := nA2
    have cA4 : A4.ncols = X.ncols := cA2
    have hcomp := sliceCompress_spack hc A4 (r1 := r1) (n1 := n1) (r2 := r2) hrle1 (by omega) (by omega) (by
      intro i j hi hi' hj
      rw [nA4] at hi'
      rw [cA4] at hj
      rcases hj with hj | hj
      · exact bz i j (by omega) hi' hj.1 hj.2
      · obtain ⟨s, rfl⟩ : ∃ s, i = r1 + s := ⟨i - r1, by omega⟩
        obtain ⟨t, rfl⟩ : ∃ t, j = n1 + t := ⟨j - n1, by omega⟩
        rw [b11]
        exact d2.rest s t (by omega) (by omega) (by omega) (by omega))
    obtain ⟨u1, u2⟩ := A4.swapDown_e hrle1 (fun i j h h' => bz i j h (by omega)) r2
    rw [nA4] at u1 u2
    refine ⟨A4.swapDown r1 n1 r2, _, _, r1 + r2, by rw [hcomp], (A4.swapDown_same r1 n1 r2).trans ⟨nA4, cA4, sS.fid⟩, ?_, ?_, ?_, ?_, ?_⟩
    · refine IsPLE.combine (n1 := n1) (F1 := A1.e) (F2 := Z2.e) (P1 := P1) (Q1 := Q1) (P2 := P2) (Q2 := Q2)
        (X := fun k j => A2.e k (n1 + j)) (S := fun s j => A2.e (r1 + s) (n1 + j)) d1' i1 (by omega) ?_ ?_ d2 ?_ ?_ ?_ ?_ ?_ ?_ ?_ ?_ ?_ ?_ ?_
      · intro i j hi hj
        have := hX i j hi hj
        rw [this]
        exact fA1 _ _ (by omega)
      · intro s j hs hj
        have := hS s j hs hj
        rw [← this]
        exact (fA1 _ _ (by omega)).symm
      · intro i j hi hj; rw [u1 i j (Or.inl hi), b00 i j hi hj]
      · intro i j hi hj; rw [u1 i _ (Or.inl hi), b01 i j hi]
      · intro s j hs hj
        rw [u2 s j (by omega), if_neg (by omega), if_neg (by omega), b10 s j hj]
      · intro s t hs ht hts
        rw [u2 s _ (by omega), if_pos (by omega), Nat.add_sub_cancel_left, b11]
      · intro s j hs hj hj'
        rw [u2 s _ (by omega), if_neg (by omega), if_pos (by omega)]
      · intro s j hs hj hj'
        rw [u2 s _ (by omega), if_neg (by omega), if_neg (by omega), b11]
      · intro i hi; exact if_pos hi
      · intro s hs
        show (if r1 + s < r1 then _ else if r1 + s - r1 < X.nrows - r1 then P2 (r1 + s - r1) + r1 else _) = _
        rw [if_neg (by omega), if_pos (by omega), Nat.add_sub_cancel_left, Nat.add_comm]
      · intro i hi
        rw [pleMergeQ_e hrle1, if_neg (by omega), if_pos (by omega)]
      · intro t ht
        rw [pleMergeQ_e hrle1, if_pos (by omega), if_pos (by omega), Nat.add_sub_cancel_left, Nat.add_comm]
      · intro i hi
        rw [pleMergeQ_e hrle1]
        by_cases h : r1 ≤ i ∧ i < r1 + r2
        · rw [if_pos h, if_pos (by omega)]
          have := d2.piv (i - r1) (by omega)
          omega
        · rw [if_neg h]
          by_cases h' : i < n1
          · rw [if_pos h']
            have := d1.piv i h'
            omega
          · rw [if_neg h', if_pos (by omega)]
            have := d2.piv (i - n1) (by omega)
            omega
    · intro i j hij
      by_cases hi : i < r1
      · rw [u1 i j (Or.inl hi)]
        have hj : X.ncols ≤ j := by omega
        rw [show j = n1 + (j - n1) by omega, b01 i _ hi, fS _ _ (by omega), fA1 _ _ (by omega)]
      · obtain ⟨s, rfl⟩ : ∃ s, i = r1 + s := ⟨i - r1, by omega⟩
        have ex : A4.e (r1 + s) j = X.e (r1 + s) j := by
          by_cases hj : j < r1
          · rw [b10 s j hj, hσge s (by omega), fA1 _ _ (by omega)]
          · by_cases hj2 : j < n1
            · rw [eA4, if_neg (by omega), eA3, if_neg (by omega), fS _ _ (by omega), fA1 _ _ (by omega)]
            · rw [show j = n1 + (j - n1) by omega, b11, fz2 _ _ (by omega), fS _ _ (by omega), fA1 _ _ (by omega)]
        by_cases hs : r1 + s < X.nrows
        · rw [u2 s j hs, if_neg (by omega), if_neg (by omega), ex]
        · rw [u1 _ j (Or.inr (by omega)), ex]
    · intro i hi
      show (if i < r1 then _ else if i - r1 < X.nrows - r1 then _ else P2 (i - r1)) = _
      rw [if_neg (by omega), if_neg (by omega), p2 _ (by omega)]
      show P1 (r1 + (i - r1)) = P i
      rw [Nat.add_sub_cancel' (by omega), p1 i hi]
    · intro i hi
      rw [pleMergeQ_e hrle1, if_neg (by omega), if_neg (by omega), if_neg (by omega), q2 _ (by omega)]
      show Q1 (n1 + (i - n1)) = Q i
      rw [Nat.add_sub_cancel' (by omega), q1 i (by omega)]
    · intro i hi hi'
      show (if i < r1 then _ else if i - r1 < X.nrows - r1 then P2 (i - r1) + r1 else _) = _
      rw [if_neg (by omega), if_pos (by omega), i2 _ (by omega) (by omega)]
      omega

/-- `_mzd_slice_ple` -/
theorem mzdSlicePle_spack {env : PleEnv} (hc : CompressOk env.compress) (hcb : env.cb.Ok ff.degree) (X : Mat ff) (P Q : Nat → Nat) :
    SPleOk X P Q (mzdSlicePle? env X.spack P Q) := mzdSlicePleF_spack hc hcb _ X P Q (by simp)

end M4rie
