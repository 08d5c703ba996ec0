import Verif.Proofs.Pluq

/-! # PLUQ of sliced matrices and elimination by PLE -/

namespace M4rie
open M4rie.Spec

variable {ff : Gf2e} [IsField ff]

/-- `_mzd_slice_pluq`, in terms of the decomposition computed by `_mzd_slice_ple` -/
theorem mzdSlicePluq_spack {env : PleEnv} (hc : CompressOk env.compress) (hcb : env.cb.Ok ff.degree) (X : Mat ff) (P Q : Nat → Nat) :
    ∃ (Z G : Mat ff) (P' Q' : Nat → Nat) (r : Nat), mzdSlicePluq? env X.spack P Q = some (G.spack, P', Q', r) ∧ SameMat G X ∧
      IsPLE X.nrows X.ncols r X.e Z.e P' Q' ∧
      (∀ k j, k < r → k < j → j < X.ncols → G.e k j = Z.e k (rowPerm (permAbove Q' k) X.ncols j)) ∧
      (∀ i j, i < X.nrows → j < X.ncols → j ≤ i ∨ r ≤ i → G.e i j = Z.e i j) ∧
      Frame G X ∧ (∀ i, X.nrows ≤ i → P' i = P i) ∧ (∀ i, X.ncols ≤ i → Q' i = Q i) ∧ (∀ i, r ≤ i → i < X.nrows → P' i = i) := by
  obtain ⟨Z, P', Q', r, h1, h2, h3, h4, h5, h6, h7⟩ := mzdSlicePle_spack hc hcb X P Q
  have hfix : ∀ i j, j ≤ i → rowPerm (permAbove Q' i) X.ncols j = j := fun i j hj => permAbove_fix i X.ncols (fun i hi => (h3.piv i hi).1) j hj
  have hge : ∀ i j, X.ncols ≤ j → rowPerm (permAbove Q' i) X.ncols j = j := fun i j hj => by
    refine rowPerm_ge X.ncols le_rfl (fun c hc => ?_) j hj
    unfold permAbove
    split_ifs
    · exact (h3.piv c hc).2
    · exact hc
  have hle := h3.le
  unfold mzdSlicePluq?
  rw [h1, Option.map_some]
  by_cases hr : r ≠ 0 ∧ r < X.nrows
  · refine ⟨Z, Z.unwindow 0 0 ((Z.window 0 0 r Z.ncols).colsByRow fun i => rowPerm (permAbove Q' i) Z.ncols), P', Q', r, ?_, ⟨h2.nrows, h2.ncols, h2.fid⟩, h3, ?_, ?_, ?_, h5, h6, h7⟩
    · refine congrArg (fun S => some (S, P', Q', r)) ?_
      show (if r ≠ 0 ∧ r < Z.nrows then _ else _) = _
      rw [if_pos (by rw [h2.nrows]; exact hr)]
      show sliceSetWindow Z.spack 0 0 (mzdSliceApplyPRightTransTri (mzdSliceWindow Z.spack 0 0 r Z.ncols) ⟨Z.ncols, Q'⟩) = _
      rw [sliceWindow_spack Z 0 0 _ _ rfl, sliceApplyPRightTransTri_spack, sliceSetWindow_spack _ _ _ _ rfl]
      rfl
    all_goals
      have eG : ∀ i j, (Z.unwindow 0 0 ((Z.window 0 0 r Z.ncols).colsByRow fun i => rowPerm (permAbove Q' i) Z.ncols)).e i j =
          if i < r then Z.e i (rowPerm (permAbove Q' i) X.ncols j) else Z.e i j := fun i j => by
        rw [unwindow_zero_e, ← h2.ncols]
        simp [Mat.colsByRow, Mat.window]
    · intro k j hk _ _
      rw [eG, if_pos hk]
    · intro i j hi hj h
      rw [eG]
      split_ifs with hir
      · rw [hfix i j (by omega)]
      · rfl
    · intro i j hij
      rw [eG, ← h4 i j hij]
      split_ifs with hir
      · rw [hge i j (by omega)]
      · rfl
  · refine ⟨Z, Z.colsByRow fun i => rowPerm (permAbove Q' i) Z.ncols, P', Q', r, ?_, ⟨h2.nrows, h2.ncols, h2.fid⟩, h3, ?_, ?_, ?_, h5, h6, h7⟩
    · refine congrArg (fun S => some (S, P', Q', r)) ?_
      show (if r ≠ 0 ∧ r < Z.nrows then _ else _) = _
      rw [if_neg (by rw [h2.nrows]; exact hr)]
      exact sliceApplyPRightTransTri_spack Z _
    all_goals
      have eG : ∀ i j, (Z.colsByRow fun i => rowPerm (permAbove Q' i) Z.ncols).e i j =
          if i < X.nrows then Z.e i (rowPerm (permAbove Q' i) X.ncols j) else Z.e i j := fun i j => by
        rw [← h2.ncols, ← h2.nrows]; rfl
    · intro k j hk _ _
      rw [eG, if_pos (by omega)]
    · intro i j hi hj h
      rw [eG, if_pos hi]
      by_cases hji : j ≤ i
      · rw [hfix i j hji]
      · have hr0 : r = 0 := by omega
        rw [h3.rest i j (by omega) hi (by omega) hj]
        refine h3.rest i _ (by omega) hi (by omega) (rowPerm_lt X.ncols le_rfl (fun c hc => ?_) j hj)
        unfold permAbove
        split_ifs
        · exact (h3.piv c hc).2
        · exact hc
    · intro i j hij
      rw [eG, ← h4 i j hij]
      split_ifs with hir
      · rw [hge i j (by omega)]
      · rfl

/-- ones on the diagonal -/
def Mat.onesDiag (A : Mat ff) (r : Nat) : Mat ff := { A with e := fun i j => if i = j ∧ i < r then 1 else A.e i j }

theorem onesDiag_spack (W : Mat ff) : ∀ r, forN (fun i U => mzdSliceWriteElem U i i 1#64) r W.spack = (W.onesDiag r).spack
  | 0 => by
    refine congrArg Mat.spack (Mat.ext rfl rfl rfl (by funext i j; exact (if_neg (by omega)).symm))
  | r + 1 => by
    show mzdSliceWriteElem (forN _ r W.spack) r r 1#64 = _
    rw [onesDiag_spack W r]
    refine (sliceWriteElem_spack (W.onesDiag r) r r 1).trans (congrArg Mat.spack (Mat.ext rfl rfl rfl ?_))
    funext i j
    show (if i = r ∧ j = r then (1 : Elem ff) else if i = j ∧ i < r then 1 else W.e i j) = if i = j ∧ i < r + 1 then 1 else W.e i j
    split_ifs <;> first | rfl | omega

theorem echPleSolve_spack {cb : Codebook} (hcb : cb.Ok ff.degree) (G : Mat ff) {r : Nat} (hr : r ≤ G.nrows) (hrn : r ≤ G.ncols) :
    ∃ T : Mat ff, echPleSolve? cb G.spack r = some T.spack ∧ SameMat T G ∧ (∀ i j, ¬ (i < r ∧ j < G.ncols) → T.e i j = G.e i j) ∧
      (∀ i j, i < r → j < r → T.e i j = if i = j then 1 else 0) ∧
      (∀ k j, k < r → r ≤ j → j < G.ncols → ∑ l ∈ Finset.Ico k r, uPart G.e k l * T.e l j = uPart G.e k j) := by
  set G1 := G.unwindow 0 0 ((G.window 0 0 r r).onesDiag r) with hG1
  have ones : sliceSetWindow G.spack 0 0 (forN (fun i U => mzdSliceWriteElem U i i 1#64) r (mzdSliceWindow G.spack 0 0 r r)) = G1.spack := by
    rw [sliceWindow_spack G 0 0 _ _ rfl, onesDiag_spack, sliceSetWindow_spack _ _ _ _ rfl]
  have eG1 : ∀ i j, G1.e i j = if i = j ∧ i < r then 1 else G.e i j := fun i j => by
    rw [hG1, unwindow_zero_e]; simp [Mat.onesDiag, Mat.window]
  have solve : ∀ B : Mat ff, B.nrows = r → B.fid = G.fid → 0 < B.ncols →
      ∃ X : Mat ff, mzdSliceTrsmUpperLeft? cb (G1.window 0 0 r r).spack B.spack mzedTrsmCutoff = some X.spack ∧ SameMat X B ∧ Frame X B ∧
        ∀ i j, i < r → j < B.ncols → ∑ k ∈ Finset.Ico i r, uPart G.e i k * X.e k j = B.e i j := by
    intro B hB hf h0
    obtain ⟨X, ex, hx⟩ := trsmUpperF_pk (sliceTrsmLaws (ff := ff) hcb) (cutoff := mzedTrsmCutoff) (by decide) (B.nrows + 1) (G1.window 0 0 r r) B
      (by simp) (by simp [hB]) (by simp [hB]) hf.symm h0 (fun i hi => by
        show G1.e (0 + i) (0 + i) ≠ 0
        rw [Nat.zero_add, eG1, if_pos ⟨rfl, by omega⟩]
        exact one_ne_zero)
    refine ⟨X, ex, hx.same, hx.frame, fun i j hi hj => ?_⟩
    have := hx.solves i j (by omega) hj
    rw [← this, hB]
    refine Finset.sum_congr rfl fun k hk => ?_
    obtain ⟨a, b⟩ := Finset.mem_Ico.1 hk
    congr 1
    show _ = G1.e (0 + i) (0 + k)
    rw [Nat.zero_add, Nat.zero_add, eG1]
    unfold uPart
    rw [if_neg (by omega)]
    by_cases hik : k = i
    · rw [if_pos hik, if_pos ⟨hik.symm, hi⟩]
    · rw [if_neg hik, if_neg (by omega)]
  -- the first part
  have mid : ∃ A2 : Mat ff, SameMat A2 G ∧ (∀ i j, ¬ (i < r ∧ j < G.ncols) → A2.e i j = G.e i j) ∧
      (∀ k j, k < r → r ≤ j → j < G.ncols → ∑ l ∈ Finset.Ico k r, uPart G.e k l * A2.e l j = G.e k j) ∧
      echPleSolve? cb G.spack r = onSWindow A2.spack 0 0 r r fun U => some (mzdSliceSetUi U 1#64) := by
    unfold echPleSolve?
    simp only [spack_ncols, ones]
    by_cases c1 : 64 * (r / 64) = r ∧ r ≠ G.ncols
    · obtain ⟨X, ex, sx, fx, hx⟩ := solve (G1.window 0 r r G.ncols) (by simp) rfl (by simp; omega)
      have eA : ∀ i j, (G1.unwindow 0 r X).e i j = if r ≤ j then X.e i (j - r) else G1.e i j := fun i j => by simp [Mat.unwindow]
      refine ⟨G1.unwindow 0 r X, ⟨rfl, rfl, rfl⟩, fun i j h => ?_, fun k j hk hj hj' => ?_, ?_⟩
      · rw [eA]
        split_ifs with hj
        · rw [fx i (j - r) (by simp; omega)]
          show G1.e (0 + i) (r + (j - r)) = _
          rw [Nat.zero_add, Nat.add_sub_cancel' hj, eG1, if_neg (by omega)]
        · rw [eG1, if_neg (by omega)]
      · have := hx k (j - r) hk (by simp; omega)
        rw [Finset.sum_congr rfl (fun l _ => by rw [eA, if_pos hj]), this]
        show G1.e (0 + k) (r + (j - r)) = _
        rw [Nat.zero_add, Nat.add_sub_cancel' hj, eG1, if_neg (by omega)]
      · rw [if_pos c1, sliceWindow_spack G1 0 0 _ _ rfl, onSWindow_spack G1 0 r r G.ncols (by omega) (f := fun B => mzdSliceTrsmUpperLeft? cb (G1.window 0 0 r r).spack B mzedTrsmCutoff) ex, Option.bind_some]
    · rw [if_neg c1]
      by_cases c2 : 64 * (r / 64) ≠ r ∧ r ≠ G.ncols
      · rw [if_pos c2]
        set rr := 64 * (r / 64) with hrr
        have hrr' : rr < r := by omega
        have h64 : rr % 64 = 0 := by omega
        by_cases c3 : G.ncols > rr + 64
        · rw [if_pos c3, sliceSubmatrix_spack, sliceWindow_spack G1 0 0 _ _ rfl]
          obtain ⟨X0, e0, s0, f0, h0⟩ := solve (G.submatrix 0 rr r (rr + 64)) rfl rfl (by show 0 < rr + 64 - rr; omega)
          obtain ⟨X1, e1, s1, f1, h1⟩ := solve (G1.window 0 (rr + 64) r G.ncols) (by simp) rfl (by simp; omega)
          rw [e0, Option.bind_some, onSWindow_spack G1 0 (rr + 64) r G.ncols (by omega) (f := fun B => mzdSliceTrsmUpperLeft? cb (G1.window 0 0 r r).spack B mzedTrsmCutoff) e1, Option.bind_some]
          set A1 := G1.unwindow 0 (rr + 64) X1 with hA1
          rw [onSWindow_spack A1 0 rr r (rr + 64) h64 (W := (A1.window 0 rr r (rr + 64)).copyM X0) (f := fun Bw => some (mzdSliceCopy Bw X0.spack)) (congrArg some (sliceCopy_spack _ _))]
          have n0 : X0.nrows = r := s0.nrows
          have m0 : X0.ncols = 64 := by rw [s0.ncols]; show rr + 64 - rr = 64; omega
          have eA1 : ∀ i j, A1.e i j = if rr + 64 ≤ j then X1.e i (j - (rr + 64)) else G1.e i j := fun i j => by simp [hA1, Mat.unwindow]
          have eA : ∀ i j, (A1.unwindow 0 rr ((A1.window 0 rr r (rr + 64)).copyM X0)).e i j =
              if i < r ∧ rr ≤ j ∧ j < rr + 64 then X0.e i (j - rr) else A1.e i j := fun i j => by
            simp only [Mat.unwindow, Mat.copyM, Mat.window, Nat.zero_le, true_and, Nat.sub_zero, Nat.zero_add, n0, m0]
            by_cases hj : rr ≤ j
            · rw [if_pos hj, Nat.add_sub_cancel' hj]
              by_cases hi : i < r ∧ j < rr + 64
              · rw [if_pos (by omega), if_pos (by omega)]
              · rw [if_neg (by omega), if_neg (by omega)]
            · rw [if_neg hj, if_neg (by omega)]
          refine ⟨A1.unwindow 0 rr ((A1.window 0 rr r (rr + 64)).copyM X0), ⟨rfl, rfl, rfl⟩, fun i j h => ?_, fun k j hk hj hj' => ?_, Option.bind_some ..⟩
          · rw [eA, if_neg (by omega), eA1]
            split_ifs with hj
            · rw [f1 i _ (by simp; omega)]
              show G1.e (0 + i) (rr + 64 + (j - (rr + 64))) = _
              rw [Nat.zero_add, Nat.add_sub_cancel' hj, eG1, if_neg (by omega)]
            · rw [eG1, if_neg (by omega)]
          · by_cases hj64 : j < rr + 64
            · have := h0 k (j - rr) hk (by show j - rr < rr + 64 - rr; omega)
              rw [Finset.sum_congr rfl (fun l hl => by rw [eA, if_pos ⟨(Finset.mem_Ico.1 hl).2, by omega, hj64⟩]), this]
              show (if k < r - 0 ∧ j - rr < rr + 64 - rr then G.e (0 + k) (rr + (j - rr)) else 0) = _
              rw [if_pos (by omega), Nat.zero_add, Nat.add_sub_cancel' (by omega)]
            · have := h1 k (j - (rr + 64)) hk (by simp; omega)
              rw [Finset.sum_congr rfl (fun l hl => by rw [eA, if_neg (by omega), eA1, if_pos (by omega)]), this]
              show G1.e (0 + k) (rr + 64 + (j - (rr + 64))) = _
              rw [Nat.zero_add, Nat.add_sub_cancel' (by omega), eG1, if_neg (by omega)]
        · rw [if_neg c3, sliceSubmatrix_spack, sliceWindow_spack G1 0 0 _ _ rfl]
          obtain ⟨X0, e0, s0, f0, h0⟩ := solve (G.submatrix 0 rr r G.ncols) rfl rfl (by show 0 < G.ncols - rr; omega)
          rw [e0, Option.bind_some,
            onSWindow_spack G1 0 rr r G.ncols h64 (W := (G1.window 0 rr r G.ncols).copyM X0) (f := fun Bw => some (mzdSliceCopy Bw X0.spack)) (congrArg some (sliceCopy_spack _ _))]
          have n0 : X0.nrows = r := s0.nrows
          have m0 : X0.ncols = G.ncols - rr := s0.ncols
          have eA : ∀ i j, (G1.unwindow 0 rr ((G1.window 0 rr r G.ncols).copyM X0)).e i j =
              if i < r ∧ rr ≤ j ∧ j < G.ncols then X0.e i (j - rr) else G1.e i j := fun i j => by
            simp only [Mat.unwindow, Mat.copyM, Mat.window, Nat.zero_le, true_and, Nat.sub_zero, Nat.zero_add, n0, m0]
            by_cases hj : rr ≤ j
            · rw [if_pos hj, Nat.add_sub_cancel' hj]
              by_cases hi : i < r ∧ j < G.ncols
              · rw [if_pos (by omega), if_pos (by omega)]
              · rw [if_neg (by omega), if_neg (by omega)]
            · rw [if_neg hj, if_neg (by omega)]
          refine ⟨G1.unwindow 0 rr ((G1.window 0 rr r G.ncols).copyM X0), ⟨rfl, rfl, rfl⟩, fun i j h => ?_, fun k j hk hj hj' => ?_, Option.bind_some ..⟩
          · rw [eA, if_neg (by omega), eG1, if_neg (by omega)]
          · have := h0 k (j - rr) hk (by show j - rr < G.ncols - rr; omega)
            rw [Finset.sum_congr rfl (fun l hl => by rw [eA, if_pos ⟨(Finset.mem_Ico.1 hl).2, by omega, hj'⟩]), this]
            show (if k < r - 0 ∧ j - rr < G.ncols - rr then G.e (0 + k) (rr + (j - rr)) else 0) = _
            rw [if_pos (by omega), Nat.zero_add, Nat.add_sub_cancel' (by omega)]
      · rw [if_neg c2]
        exact ⟨G, SameMat.refl G, fun _ _ _ => rfl, fun k j _ _ _ => by omega, rfl⟩
  obtain ⟨A2, s2, f2, h2, e2⟩ := mid
  have eT : ∀ i j, (A2.unwindow 0 0 ((A2.window 0 0 r r).scalar 1)).e i j = if i < r ∧ j < r then (if i = j then 1 else 0) else A2.e i j := fun i j => by
    rw [unwindow_zero_e]
    simp [Mat.scalar, Mat.window]
  refine ⟨_, e2.trans (onSWindow_spack A2 0 0 r r rfl (congrArg some (sliceSetUi_spack _ 1))), ⟨s2.nrows, s2.ncols, s2.fid⟩, fun i j h => ?_, fun i j hi hj => ?_,
    fun k j hk hj hj' => ?_⟩
  · rw [eT, if_neg (by omega), f2 i j h]
  · rw [eT, if_pos ⟨hi, hj⟩]
  · rw [Finset.sum_congr rfl (fun l hl => by rw [eT, if_neg (by omega)]), h2 k j hk hj hj']
    unfold uPart
    rw [if_neg (by omega), if_neg (by omega)]

theorem clearRow_bit (M : Nat → Nat → Word) (i : Nat) : ∀ n, n ≤ i + 1 → ∀ i' p,
    bitAt (forN (fun j M => m4riClearBits M i j (min 64 (i - j + 1))) n M) i' p =
      if i' = i ∧ p < n then false else if i' = i ∧ p ≤ i then bitAt (forN (fun j M => m4riClearBits M i j (min 64 (i - j + 1))) n M) i' p else bitAt M i' p
  | 0, _, i', p => by
    rw [if_neg (by omega)]
    exact (ite_self _).symm
  | n + 1, hn, i', p => by
    have ih := clearRow_bit M i n (by omega) i' p
    have e : bitAt (forN (fun j M => m4riClearBits M i j (min 64 (i - j + 1))) (n + 1) M) i' p =
        if i' = i ∧ n ≤ p ∧ p < n + min 64 (i - n + 1) then false else bitAt (forN (fun j M => m4riClearBits M i j (min 64 (i - j + 1))) n M) i' p := by
      show bitAt (m4riClearBits _ i n _) i' p = _
      unfold m4riClearBits
      rw [bitAt_ofBits]
    by_cases h1 : i' = i ∧ p < n + 1
    · rw [if_pos h1, e]
      split_ifs with h
      · rfl
      · rw [ih, if_pos (by omega)]
    · rw [if_neg h1]
      by_cases h2 : i' = i ∧ p ≤ i
      · rw [if_pos h2]
      · rw [if_neg h2, e, if_neg (by omega), ih, if_neg (by omega), if_neg h2]

/-- row `i` cleared up to the diagonal -/
def Mat.clearRow (A : Mat ff) (i : Nat) : Mat ff := { A with e := fun i' j => if i' = i ∧ j ≤ i then 0 else A.e i' j }

theorem clearRow_spack (A : Mat ff) (i : Nat) :
    ({ A.spack with x := fun k => if k < A.spack.depth then forN (fun j M => m4riClearBits M i j (min 64 (i - j + 1))) (i + 1) (A.spack.x k)
        else A.spack.x k } : Slice) = (A.clearRow i).spack := by
  refine spack_op A (A.clearRow i) rfl rfl rfl (fun k => forN (fun j M => m4riClearBits M i j (min 64 (i - j + 1))) (i + 1) (A.spack.x k)) fun k hk i' j => ?_
  rw [clearRow_bit _ i (i + 1) le_rfl, spack_bit]
  show _ = ebit k (if i' = i ∧ j ≤ i then 0 else A.e i' j)
  by_cases h : i' = i ∧ j ≤ i
  · rw [if_pos (by omega), if_pos h]; exact (elem_zero_bit k).symm
  · rw [if_neg (by omega), if_neg h, if_neg h]; rfl

theorem echPleClear_spack (Z : Mat ff) (Q : Nat → Nat) : ∀ r, ∃ R : Mat ff, echPleClear Z.spack Q r = R.spack ∧ SameMat R Z ∧
    ∀ i j, R.e i j = if i < r then (if j = Q i then 1 else if j ≤ i then 0 else Z.e i j) else Z.e i j
  | 0 => ⟨Z, rfl, SameMat.refl Z, fun i j => (if_neg (by omega)).symm⟩
  | r + 1 => by
    obtain ⟨R, e, s, h⟩ := echPleClear_spack Z Q r
    refine ⟨(R.clearRow r).set r (Q r) 1, ?_, ⟨s.nrows, s.ncols, s.fid⟩, fun i j => ?_⟩
    · refine Eq.trans ?_ (sliceWriteElem_spack (R.clearRow r) r (Q r) 1)
      rw [← clearRow_spack, ← e]
      rfl
    · show (if i = r ∧ j = Q r then (1 : Elem ff) else if i = r ∧ j ≤ r then 0 else R.e i j) = _
      rw [h]
      by_cases hi : i = r
      · subst hi
        rw [if_pos (c := i < i + 1) (by omega), if_neg (c := i < i) (by omega)]
        by_cases hj : j = Q i
        · rw [if_pos ⟨rfl, hj⟩, if_pos hj]
        · rw [if_neg (fun h => hj h.2), if_neg hj]
          by_cases hj2 : j ≤ i
          · rw [if_pos ⟨rfl, hj2⟩, if_pos hj2]
          · rw [if_neg (fun h => hj2 h.2), if_neg hj2]
      · rw [if_neg (fun h => hi h.1), if_neg (fun h => hi h.1)]
        by_cases hir : i < r
        · rw [if_pos hir, if_pos (c := i < r + 1) (by omega)]
        · rw [if_neg hir, if_neg (c := i < r + 1) (by omega)]

/-- the result of an elimination routine -/
def EchOk (X : Mat ff) (full : Bool) (R : Mat ff) (r : Nat) : Prop :=
  ∃ piv, SameMat R X ∧ IsEchelon X.nrows X.ncols r R.e piv ∧ (full = true → IsRref X.nrows X.ncols r R.e piv) ∧
    rowSpan X.nrows X.ncols R.e = rowSpan X.nrows X.ncols X.e ∧ Frame R X

theorem zeroRows_spack (R : Mat ff) (r : Nat) :
    (if r ≠ R.spack.nrows then sliceSetWindow R.spack r 0 (mzdSliceSetUi (mzdSliceWindow R.spack r 0 R.spack.nrows R.spack.ncols) 0#64) else R.spack) =
      (Mat.spack { R with e := fun i j => if r ≤ i ∧ i < R.nrows ∧ j < R.ncols then 0 else R.e i j }) := by
  show (if r ≠ R.nrows then sliceSetWindow R.spack r 0 (mzdSliceSetUi (mzdSliceWindow R.spack r 0 R.nrows R.ncols) 0#64) else R.spack) = _
  by_cases h : r = R.nrows
  · rw [if_neg (not_not.2 h)]
    exact congrArg Mat.spack (Mat.ext rfl rfl rfl (by funext i j; exact (if_neg (by omega)).symm))
  · rw [if_pos h, sliceWindow_spack R r 0 _ _ rfl]
    have := sliceSetUi_spack (R.window r 0 R.nrows R.ncols) 0
    change mzdSliceSetUi (R.window r 0 R.nrows R.ncols).spack 0#64 = _ at this
    rw [this, sliceSetWindow_spack _ _ _ _ rfl]
    refine congrArg Mat.spack (Mat.ext rfl rfl rfl ?_)
    funext i j
    simp only [Mat.unwindow, Mat.scalar, Mat.window, Nat.zero_le, and_true, Nat.sub_zero, Nat.zero_add, ite_self]
    by_cases hi : r ≤ i
    · rw [if_pos hi, Nat.add_sub_cancel' hi]
      by_cases hh : i < R.nrows ∧ j < R.ncols
      · rw [if_pos (by omega), if_pos ⟨hi, hh⟩]
      · rw [if_neg (by omega), if_neg (by omega)]
    · rw [if_neg hi, if_neg (by omega)]

/-- `mzd_slice_echelonize_ple` -/
theorem mzdSliceEchelonizePle_spack {env : PleEnv} (hc : CompressOk env.compress) (hcb : env.cb.Ok ff.degree) (X : Mat ff) (full : Bool) :
    ∃ R r, mzdSliceEchelonizePle? env X.spack full = some (R.spack, r) ∧ EchOk X full R r := by
  unfold mzdSliceEchelonizePle?
  cases full with
  | false =>
    obtain ⟨Z, P, Q, r, e1, s1, d1, f1, -⟩ := mzdSlicePle_spack hc hcb X (mzpInit X.spack.nrows).val (mzpInit X.spack.ncols).val
    obtain ⟨R, e2, s2, h2⟩ := echPleClear_spack Z Q r
    have hle := d1.le
    have hrle := d1.rle
    simp only [Bool.false_eq_true, if_false]
    rw [e1, Option.map_some, Option.map_some]
    simp only [e2]
    rw [zeroRows_spack]
    have nr : R.nrows = X.nrows := s2.nrows.trans s1.nrows
    have nc : R.ncols = X.ncols := s2.ncols.trans s1.ncols
    refine ⟨_, r, rfl, ?_⟩
    rw [nr, nc]
    obtain ⟨a, b⟩ := d1.ech (R := fun i j => if r ≤ i ∧ i < X.nrows ∧ j < X.ncols then 0 else R.e i j) (fun k j hk hj => by
        rw [if_neg (by omega), h2, if_pos hk]
        unfold ePart
        have := (d1.piv k (by omega)).1
        rcases Nat.lt_trichotomy j (Q k) with h | h | h
        · rw [if_neg (by omega), if_pos h]
          split_ifs with hjk
          · rfl
          · exact d1.gap k j hk (by omega) h.le
        · rw [if_pos h, if_neg (by omega), if_pos h]
        · rw [if_neg (by omega), if_neg (by omega), if_neg (by omega), if_neg (by omega)])
      (fun i j hi hi' hj => if_pos ⟨hi, hi', hj⟩)
    refine ⟨Q, ⟨rfl, rfl, s2.fid.trans s1.fid⟩, a, fun h => absurd h (by decide), b, fun i j hij => ?_⟩
    show (if r ≤ i ∧ i < X.nrows ∧ j < X.ncols then 0 else R.e i j) = X.e i j
    rw [if_neg (by omega), h2, ← f1 i j hij]
    split_ifs with h1 h3 h4
    · have := (d1.piv i (by omega)).2
      omega
    · omega
    · rfl
    · rfl
  | true =>
    obtain ⟨Z, G, P, Q, r, e1, s1, d1, hG, hL, f1, -⟩ := mzdSlicePluq_spack hc hcb X (mzpInit X.spack.nrows).val (mzpInit X.spack.ncols).val
    have hle := d1.le
    have hrle := d1.rle
    obtain ⟨T, e2, s2, f2, hI, hS⟩ := echPleSolve_spack hcb G (r := r) (by rw [s1.nrows]; exact hle) (by rw [s1.ncols]; exact hrle)
    rw [s1.ncols] at f2 hS
    simp only [if_true]
    rw [e1, Option.bind_some]
    simp only [e2, Option.map_some, spack_ncols]
    have nT : T.nrows = X.nrows := s2.nrows.trans s1.nrows
    have cT : T.ncols = X.ncols := s2.ncols.trans s1.ncols
    set σ := rowPerm Q X.ncols with hσ
    have hσge : ∀ j, X.ncols ≤ j → σ⁻¹ j = j := fun j hj => by
      rw [Equiv.Perm.inv_eq_iff_eq]; exact (rowPerm_ge X.ncols le_rfl (fun i hi => (d1.piv i hi).2) j hj).symm
    have key : ∃ R : Mat ff, SameMat R X ∧ (∀ i j, R.e i j = if i < r then T.e i (σ⁻¹ j) else T.e i j) ∧
        (if r ≠ 0 then sliceSetWindow T.spack 0 0 (mzdSliceApplyPRight (mzdSliceWindow T.spack 0 0 r T.ncols) ⟨T.ncols, Q⟩) else T.spack) = R.spack := by
      by_cases h0 : r = 0
      · exact ⟨T, ⟨nT, cT, s2.fid.trans s1.fid⟩, fun i j => (if_neg (by omega)).symm, if_neg (by omega)⟩
      · refine ⟨T.unwindow 0 0 ((T.window 0 0 r T.ncols).colsBy σ⁻¹), ⟨nT, cT, s2.fid.trans s1.fid⟩, fun i j => ?_, ?_⟩
        · rw [unwindow_zero_e]
          simp [Mat.colsBy, Mat.window]
        · rw [if_pos h0, sliceWindow_spack T 0 0 _ _ rfl, sliceApplyPRight_spack, sliceSetWindow_spack _ _ _ _ rfl]
          simp only [Mat.window_ncols, Nat.sub_zero, Nat.min_self, cT]
          rw [hσ]
    obtain ⟨R, s3, h3, e3⟩ := key
    rw [e3, zeroRows_spack, s3.nrows, s3.ncols]
    refine ⟨_, r, rfl, ?_⟩
    obtain ⟨a, b⟩ := d1.rref (G := G.e) (T := T.e) (R := fun i j => if r ≤ i ∧ i < X.nrows ∧ j < X.ncols then 0 else R.e i j)
      (fun k j hk hj => d1.uPart_eq hG hk hj) hI hS
      (fun k j hk hj => by
        rw [if_neg (by omega), h3, if_pos hk, ← hσ]
        rw [show σ⁻¹ (σ j) = j from σ.symm_apply_apply j])
      (fun i j hi hi' hj => if_pos ⟨hi, hi', hj⟩)
    refine ⟨Q, ⟨rfl, rfl, s3.fid⟩, a.toIsEchelon, fun _ => a, b, fun i j hij => ?_⟩
    show (if r ≤ i ∧ i < X.nrows ∧ j < X.ncols then 0 else R.e i j) = X.e i j
    rw [if_neg (by omega), h3, ← f1 i j hij, ← f2 i j (by omega)]
    split_ifs with hi
    · rw [hσge j (by omega)]
    · rfl

/-- `mzed_echelonize_ple` -/
theorem mzedEchelonizePle_pack {env : PleEnv} (hc : CompressOk env.compress) (hcb : env.cb.Ok ff.degree) (X : Mat ff) (full : Bool) :
    ∃ R r, mzedEchelonizePle? env X.pack full = some (R.pack, r) ∧ EchOk X full R r := by
  unfold mzedEchelonizePle?
  obtain ⟨Z, r, e, piv, s, h1, h2, h3, f⟩ := mzdSliceEchelonizePle_spack hc hcb X.trim full
  change IsEchelon X.nrows X.ncols r Z.e piv at h1
  change full = true → IsRref X.nrows X.ncols r Z.e piv at h2
  change rowSpan X.nrows X.ncols Z.e = rowSpan X.nrows X.ncols X.trim.e at h3
  have nz : Z.nrows = X.nrows := s.nrows
  have cz : Z.ncols = X.ncols := s.ncols
  rw [sliceNew_spack, Option.bind_some, e, Option.bind_some, cling_pack X Z nz.symm cz.symm]
  have ee : ∀ i j, i < X.nrows → j < X.ncols → (X.copyM Z).e i j = Z.e i j := fun i j hi hj => if_pos ⟨by omega, by omega⟩
  have he : IsEchelon X.nrows X.ncols r (X.copyM Z).e piv := ⟨h1.le, h1.lt, h1.mono,
    fun i hi => by rw [ee i _ (by have := h1.le; omega) (h1.lt i hi)]; exact h1.one i hi,
    fun i hi j hj => by rw [ee i _ (by have := h1.le; omega) (by have := h1.lt i hi; omega)]; exact h1.left i hi j hj,
    fun i hi hi' j hj => by rw [ee i j hi' hj]; exact h1.zero i hi hi' j hj⟩
  refine ⟨X.copyM Z, r, rfl, piv, ⟨rfl, rfl, rfl⟩, he, fun hf => ⟨he, fun i hi k hk hki => ?_⟩, ?_, fun i j hij => if_neg (by omega)⟩
  · rw [ee k _ hk (h1.lt i hi)]; exact (h2 hf).above i hi k hk hki
  · rw [rowSpan_congr (M' := Z.e) (fun i hi j hj => ee i j hi hj), h3]
    exact rowSpan_congr (fun i hi j hj => if_pos ⟨hi, hj⟩)

/-- `_mzed_ple` -/
theorem mzedPle_pack {env : PleEnv} (hc : CompressOk env.compress) (hcb : env.cb.Ok ff.degree) (X : Mat ff) (P Q : Nat → Nat) :
    ∃ (Z : Mat ff) (P' Q' : Nat → Nat) (r : Nat), mzedPle? env X.pack P Q = some (Z.pack, P', Q', r) ∧ SameMat Z X ∧
      IsPLE X.nrows X.ncols r X.e Z.e P' Q' ∧ Frame Z X ∧ (∀ i, X.nrows ≤ i → P' i = P i) ∧ (∀ i, X.ncols ≤ i → Q' i = Q i) := by
  unfold mzedPle?
  show ∃ (Z : Mat ff) (P' Q' : Nat → Nat) (r : Nat), (if 64 < X.ncols ∧ ¬ env.small X.nrows X.ncols = true then _ else _) = _ ∧ _
  by_cases hb : 64 < X.ncols ∧ ¬ env.small X.nrows X.ncols = true
  · rw [if_pos hb]
    obtain ⟨Z, P', Q', r, h1, h2, h3, h4, h5, h6, h7⟩ := mzdSlicePle_spack hc hcb X.trim P Q
    rw [sliceNew_spack, Option.bind_some, h1, Option.bind_some, cling_pack X Z h2.nrows.symm h2.ncols.symm]
    refine ⟨X.copyM Z, P', Q', r, rfl, ⟨rfl, rfl, rfl⟩, IsPLE_congr h3 (fun i j hi hj => (if_pos ⟨hi, hj⟩).symm)
      (fun i j hi hj => if_pos ⟨by rw [h2.nrows]; exact hi, by rw [h2.ncols]; exact hj⟩), fun i j hij => if_neg (by rw [h2.nrows, h2.ncols]; exact hij), h5, h6⟩
  · rw [if_neg hb]
    obtain ⟨Z, P', Q', r, h1, h2, h3, h4, h5, h6, -⟩ := pleNj_pack hcb X P Q
    exact ⟨Z, P', Q', r, by rw [h1], h2, h3, h4, h5, h6⟩

end M4rie
