import Verif.Model.PleRec
import Verif.Proofs.PleComb
import Verif.Proofs.Perm
import Verif.Proofs.TrsmRec

/-! # Recursive PLE decomposition of sliced matrices -/

namespace M4rie
open M4rie.Spec

/-- the effect of `_mzd_compress_l` in the situation in which it is used: the columns `n1, n1+1, …` are swapped with the columns
`r1, r1+1, …`, from the diagonal downwards -/
def swapDown (nr r1 n1 r2 : Nat) (M : Nat → Nat → Word) : Nat → Nat → Word :=
  forN (fun t M => mzdColSwapInRows M (r1 + t) (n1 + t) (r1 + t) nr) r2 M

/-- Contract of M4RI's `_mzd_compress_l(A,r1,n1,r2)`: if the rows from `r1+r2` on are zero in the columns `r1 … n1-1` and from column
`n1+r2` on, the effect is that of swapping columns `r1+t`, `n1+t` in the rows `≥ r1+t`. -/
def CompressOk (compress : Nat → Nat → (Nat → Nat → Word) → Nat → Nat → Nat → Nat → Nat → Word) : Prop :=
  ∀ nr nc M r1 n1 r2, r1 ≤ n1 → n1 + r2 ≤ nc → r1 + r2 ≤ nr →
    (∀ i p, r1 + r2 ≤ i → i < nr → (r1 ≤ p ∧ p < n1 ∨ n1 + r2 ≤ p ∧ p < nc) → bitAt M i p = false) →
    compress nr nc M r1 n1 r2 = swapDown nr r1 n1 r2 M

variable {ff : Gf2e} [IsField ff]

/-- `swapDown` on entries -/
def Mat.swapDown (X : Mat ff) (r1 n1 r2 : Nat) : Mat ff := forN (fun t Y => Y.swapColsIn (r1 + t) (n1 + t) (r1 + t) X.nrows) r2 X

theorem Mat.swapDown_same (X : Mat ff) (r1 n1 : Nat) : ∀ r2, SameMat (X.swapDown r1 n1 r2) X
  | 0 => SameMat.refl X
  | r2 + 1 => ⟨(X.swapDown_same r1 n1 r2).nrows, (X.swapDown_same r1 n1 r2).ncols, (X.swapDown_same r1 n1 r2).fid⟩

theorem swapDown_x (X : Mat ff) (r1 n1 k : Nat) (hk : k < ff.degree) : ∀ r2, M4rie.swapDown X.nrows r1 n1 r2 (X.spack.x k) = (X.swapDown r1 n1 r2).spack.x k
  | 0 => rfl
  | r2 + 1 => by
    have := congrArg (fun S : Slice => S.x k) (sliceColSwapInRows_spack (X.swapDown r1 n1 r2) (r1 + r2) (n1 + r2) (r1 + r2) X.nrows)
    refine Eq.trans ?_ this
    show mzdColSwapInRows (M4rie.swapDown X.nrows r1 n1 r2 (X.spack.x k)) _ _ _ _ = if k < ff.degree then _ else _
    rw [if_pos hk, swapDown_x X r1 n1 k hk r2]

theorem sliceCompress_spack {env : PleEnv} (h : CompressOk env.compress) (X : Mat ff) {r1 n1 r2 : Nat} (h1 : r1 ≤ n1) (h2 : n1 + r2 ≤ X.ncols)
    (h3 : r1 + r2 ≤ X.nrows)
    (hz : ∀ i j, r1 + r2 ≤ i → i < X.nrows → (r1 ≤ j ∧ j < n1 ∨ n1 + r2 ≤ j ∧ j < X.ncols) → X.e i j = 0) :
    mzdSliceCompressL env X.spack r1 n1 r2 = (X.swapDown r1 n1 r2).spack := by
  have hs := X.swapDown_same r1 n1 r2
  unfold mzdSliceCompressL
  refine spack_op X (X.swapDown r1 n1 r2) hs.fid hs.nrows hs.ncols (fun k => env.compress X.nrows X.ncols (X.spack.x k) r1 n1 r2) fun k hk i j => ?_
  rw [h _ _ _ _ _ _ h1 h2 h3 (fun i p hi hi' hp => by rw [spack_bit, hz i p hi hi' hp]; exact elem_zero_bit k), swapDown_x X r1 n1 k hk, spack_bit]
  rfl

/-- the columns of `L` found in the second half move next to those of the first -/
theorem Mat.swapDown_e (X : Mat ff) {r1 n1 : Nat} (hr : r1 ≤ n1) (hz : ∀ i j, r1 ≤ i → i < X.nrows → r1 ≤ j → j < n1 → X.e i j = 0) :
    ∀ r2, (∀ i j, i < r1 ∨ X.nrows ≤ i → (X.swapDown r1 n1 r2).e i j = X.e i j) ∧
      ∀ s j, r1 + s < X.nrows → (X.swapDown r1 n1 r2).e (r1 + s) j =
        if r1 ≤ j ∧ j < r1 + min r2 (s + 1) then X.e (r1 + s) (n1 + (j - r1)) else if r1 + min r2 (s + 1) ≤ j ∧ j < n1 + min r2 (s + 1) then 0
        else X.e (r1 + s) j
  | 0 => by
    refine ⟨fun _ _ _ => rfl, fun s j hs => ?_⟩
    show X.e (r1 + s) j = _
    rw [Nat.zero_min, if_neg (by omega)]
    split_ifs with h
    · exact hz _ _ (by omega) hs (by omega) (by omega)
    · rfl
  | r2 + 1 => by
    obtain ⟨a, b⟩ := X.swapDown_e hr hz r2
    constructor
    · intro i j hi
      rw [← a i j hi]
      show (if r1 + r2 ≤ i ∧ i < X.nrows then _ else _) = _
      exact if_neg (by omega)
    · intro s j hs
      show (if r1 + r2 ≤ r1 + s ∧ r1 + s < X.nrows then (X.swapDown r1 n1 r2).e (r1 + s) (Equiv.swap (r1 + r2) (n1 + r2) j)
        else (X.swapDown r1 n1 r2).e (r1 + s) j) = _
      by_cases h : r2 ≤ s
      · rw [if_pos (by omega), b s _ hs, show min r2 (s + 1) = r2 by omega, show min (r2 + 1) (s + 1) = r2 + 1 by omega]
        by_cases hj1 : j = r1 + r2
        · subst hj1
          rw [Equiv.swap_apply_left, if_neg (by omega), if_neg (by omega), if_pos (by omega), Nat.add_sub_cancel_left]
        · by_cases hj2 : j = n1 + r2
          · subst hj2
            rw [Equiv.swap_apply_right, if_neg (by omega), if_pos (by omega), if_neg (by omega), if_pos (by omega)]
          · rw [Equiv.swap_apply_of_ne_of_ne hj1 hj2]
            by_cases c1 : r1 ≤ j ∧ j < r1 + r2
            · rw [if_pos c1, if_pos (by omega)]
            · rw [if_neg c1, if_neg (c := r1 ≤ j ∧ j < r1 + (r2 + 1)) (by omega)]
              by_cases c2 : r1 + r2 ≤ j ∧ j < n1 + r2
              · rw [if_pos c2, if_pos (by omega)]
              · rw [if_neg c2, if_neg (by omega)]
      · rw [if_neg (by omega), b s _ hs, show min r2 (s + 1) = s + 1 by omega, show min (r2 + 1) (s + 1) = s + 1 by omega]

/-- the result of a PLE routine on sliced matrices -/
def SPleOk (X : Mat ff) (P Q : Nat → Nat) (res : Option (Slice × (Nat → Nat) × (Nat → Nat) × Nat)) : Prop :=
  ∃ (Z : Mat ff) (P' Q' : Nat → Nat) (r : Nat), res = some (Z.spack, P', Q', r) ∧ SameMat Z X ∧
      IsPLE X.nrows X.ncols r X.e Z.e P' Q' ∧ Frame Z X ∧ (∀ i, X.nrows ≤ i → P' i = P i) ∧ (∀ i, X.ncols ≤ i → Q' i = Q i) ∧
      (∀ i, r ≤ i → i < X.nrows → P' i = i)

theorem IsPLE_congr {K : Type*} [Field K] {nr nc r : Nat} {A A' F F' : Nat → Nat → K} {P Q : Nat → Nat}
    (h : IsPLE nr nc r A F P Q) (hA : ∀ i j, i < nr → j < nc → A' i j = A i j) (hF : ∀ i j, i < nr → j < nc → F' i j = F i j) :
    IsPLE nr nc r A' F' P Q := by
  have hle := h.le
  have hrle := h.rle
  refine ⟨h.le, h.perm, h.piv, h.rle, h.mono, fun i hi => ?_, fun i j hi hj => ?_, fun i j hi hij hj => ?_, fun i j hi hir hj hjn => ?_⟩
  · rw [hF i i (by omega) (by omega)]; exact h.diag i hi
  · rw [hA _ _ (rowPerm_lt nr le_rfl (fun i hi => (h.perm i hi).2) i hi) hj, h.prod i j hi hj]
    refine Finset.sum_congr rfl fun k hk => ?_
    have hk := Finset.mem_range.1 hk
    unfold lPart ePart
    rw [hF i k hi (by omega), hF k j (by omega) hj]
  · rw [hF i j (by omega) (lt_of_le_of_lt hj (h.piv i (by omega)).2)]; exact h.gap i j hi hij hj
  · rw [hF i j hir hjn]; exact h.rest i j hi hir hj hjn

theorem slicePleBase_spack {cb : Codebook} (hcb : cb.Ok ff.degree) (X : Mat ff) (P Q : Nat → Nat) : SPleOk X P Q (mzdSlicePleBase? cb X.spack P Q) := by
  obtain ⟨Z, P', Q', r, h1, h2, h3, h4, h5, h6, -, h7⟩ := pleNj_pack hcb X.trim P Q
  have hc : ∀ i j, i < X.nrows → j < X.ncols → (X.copyM Z).e i j = Z.e i j := fun i j hi hj =>
    if_pos ⟨by rw [h2.nrows]; exact hi, by rw [h2.ncols]; exact hj⟩
  refine ⟨X.copyM Z, P', Q', r, ?_, ⟨rfl, rfl, rfl⟩, IsPLE_congr h3 (fun i j hi hj => (if_pos ⟨hi, hj⟩).symm) hc, fun i j hij => if_neg ?_, h5, h6, h7⟩
  · unfold mzdSlicePleBase?
    rw [clingNew_pack, Option.bind_some, h1]
    show (mzedSlice? X.spack Z.pack).map _ = _
    rw [slice_spack X Z h2.nrows.symm h2.ncols.symm]
    rfl
  · rw [h2.nrows, h2.ncols]; exact hij

theorem sliceSetWindow_spack (A W : Mat ff) (lr lc : Nat) (h : lc % 64 = 0) : sliceSetWindow A.spack lr lc W.spack = (A.unwindow lr lc W).spack :=
  sliceWindowWrite_spack A W lr lc h

theorem pleSplit_spec {n : Nat} (h : 64 < n) : pleSplit n % 64 = 0 ∧ 0 < pleSplit n ∧ pleSplit n < n := by
  unfold pleSplit
  omega

/-- the Schur complement step -/
theorem pleSchur_spack {cb : Codebook} (hcb : cb.Ok ff.degree) (A : Mat ff) (P : Nat → Nat) {r n : Nat} (hr : r ≤ A.nrows) (hrn : r ≤ n) (hn : n < A.ncols)
    (h64 : n % 64 = 0) (hP : ∀ i, i < A.nrows → P i < A.nrows) (hid : ∀ i, r ≤ i → i < A.nrows → P i = i) (hd : ∀ i, i < r → A.e i i ≠ 0) :
    ∃ Z : Mat ff, pleSchur? cb A.spack P r n = some Z.spack ∧ SameMat Z A ∧ (∀ i j, ¬ (i < A.nrows ∧ n ≤ j ∧ j < A.ncols) → Z.e i j = A.e i j) ∧
      (∀ i j, i < r → j < A.ncols - n → ∑ k ∈ Finset.range (i + 1), A.e i k * Z.e k (n + j) = A.e (rowPerm P A.nrows i) (n + j)) ∧
      (∀ s j, s < A.nrows - r → j < A.ncols - n → A.e (rowPerm P A.nrows (r + s)) (n + j) =
        ∑ k ∈ Finset.range r, A.e (r + s) k * Z.e k (n + j) + Z.e (r + s) (n + j)) := by
  unfold pleSchur?
  by_cases h0 : r = 0
  · subst h0
    have hone : rowPerm P A.nrows = 1 := by
      have := rowPerm_id (P := P) (r := 0) A.nrows (fun i h h' => hid i h (by omega))
      rwa [Nat.zero_add] at this
    refine ⟨A, if_pos rfl, SameMat.refl A, fun _ _ _ => rfl, fun i j hi => absurd hi (by omega), fun s j _ _ => ?_⟩
    rw [hone]
    simp
  simp only [spack_nrows, spack_ncols, if_neg h0]
  rw [sliceWindow_spack A 0 n A.nrows A.ncols h64, sliceApplyPLeft_spack, sliceSetWindow_spack _ _ _ _ h64]
  simp only [Mat.window_nrows, Nat.sub_zero, Nat.min_self]
  set A1 := A.unwindow 0 n ((A.window 0 n A.nrows A.ncols).rowsBy (rowPerm P A.nrows)) with hA1
  have eA1 : ∀ i j, A1.e i j = if n ≤ j ∧ j < A.ncols then A.e (rowPerm P A.nrows i) j else A.e i j := by
    intro i j
    rw [hA1]
    simp only [Mat.unwindow, Mat.rowsBy, Mat.window, Nat.zero_le, true_and, Nat.zero_add, Nat.sub_zero]
    by_cases h1 : n ≤ j
    · rw [if_pos h1]
      by_cases h2 : j < A.ncols
      · rw [if_pos (by omega), if_pos ⟨h1, h2⟩, Nat.add_sub_cancel' h1]
      · rw [if_neg (by omega), if_neg (by omega), Nat.add_sub_cancel' h1]
    · rw [if_neg h1, if_neg (by omega)]
  rw [sliceWindow_spack A1 0 0 r r rfl]
  obtain ⟨X, ex, hx⟩ := trsmLowerF_pk (sliceTrsmLaws (ff := ff) hcb) (cutoff := mzedTrsmCutoff) (by decide) (r + 1) (A1.window 0 0 r r) (A1.window 0 n r A.ncols)
    (by simp) (by simp) (by simp) rfl (by simp; omega) (fun i hi => by
      simp at hi
      show A1.e (0 + i) (0 + i) ≠ 0
      rw [Nat.zero_add, eA1, if_neg (by omega)]; exact hd i hi)
  rw [onSWindow_spack A1 0 n r A.ncols h64 (W := X) (by unfold mzdSliceTrsmLowerLeft?; simpa using ex), Option.bind_some]
  set A2 := A1.unwindow 0 n X with hA2
  have fx : ∀ i j, ¬ (i < r ∧ j < A.ncols - n) → X.e i j = A1.e i (n + j) := fun i j h => by
    have := hx.frame i j (by simpa [Mat.window] using h)
    simpa [Mat.window] using this
  have eA2 : ∀ i j, A2.e i j = if i < r ∧ n ≤ j ∧ j < A.ncols then X.e i (j - n) else A1.e i j := by
    intro i j
    rw [hA2]
    simp only [Mat.unwindow, Nat.zero_le, true_and, Nat.sub_zero]
    by_cases h1 : n ≤ j
    · rw [if_pos h1]
      by_cases h2 : i < r ∧ j < A.ncols
      · rw [if_pos (by omega)]
      · rw [if_neg (by omega), fx _ _ (by omega), Nat.add_sub_cancel' h1]
    · rw [if_neg h1, if_neg (by omega)]
  rw [sliceWindow_spack A2 r 0 _ _ rfl, sliceWindow_spack A2 0 n _ _ h64]
  have ha := (sliceTrsmLaws (ff := ff) hcb).addmul (A2.window r n A.nrows A.ncols) (A2.window r 0 A.nrows r) (A2.window 0 n r A.ncols)
    (by simp) (by simp) (by simp) rfl rfl (by simp; omega)
  refine ⟨_, onSWindow_spack A2 r n A.nrows A.ncols h64 ha, ⟨rfl, rfl, rfl⟩, ?_, ?_, ?_⟩
  all_goals
    have eZ : ∀ i j, (A2.unwindow r n ((A2.window r n A.nrows A.ncols).addMulM (A2.window r 0 A.nrows r) (A2.window 0 n r A.ncols))).e i j =
        if r ≤ i ∧ i < A.nrows ∧ n ≤ j ∧ j < A.ncols then A2.e i j + ∑ k ∈ Finset.range r, A2.e i k * A2.e k j else A2.e i j := by
      intro i j
      simp only [Mat.unwindow, Mat.addMulM, Mat.window, Nat.zero_add, Nat.sub_zero]
      by_cases h1 : r ≤ i ∧ n ≤ j
      · rw [if_pos h1, Nat.add_sub_cancel' h1.1, Nat.add_sub_cancel' h1.2]
        by_cases h2 : i < A.nrows ∧ j < A.ncols
        · rw [if_pos (by omega), if_pos (by omega)]
        · rw [if_neg (by omega), if_neg (by omega)]
      · rw [if_neg h1, if_neg (by omega)]
  · intro i j h
    rw [eZ, if_neg (by omega), eA2, if_neg (by omega), eA1]
    split_ifs with hh
    · have hi : A.nrows ≤ i := by omega
      rw [rowPerm_ge A.nrows le_rfl hP i hi]
    · rfl
  · intro i j hi hj
    have := hx.solves i j (by simpa using hi) (by simpa using hj)
    simp only [Mat.window, Nat.zero_add] at this
    rw [eA1 i (n + j), if_pos (by omega)] at this
    rw [← this]
    refine Finset.sum_congr rfl fun k hk => ?_
    have hk := Finset.mem_range.1 hk
    rw [eZ, if_neg (by omega), eA2, if_pos (by omega), Nat.add_sub_cancel_left, eA1, if_neg (by omega)]
  · intro s j hs hj
    rw [eZ (r + s), if_pos (by omega), eA2 (r + s) (n + j), if_neg (by omega), eA1, if_pos (by omega), add_comm (A.e _ _), ← add_assoc]
    have : ∀ k, k ∈ Finset.range r → A.e (r + s) k *
        (A2.unwindow r n ((A2.window r n A.nrows A.ncols).addMulM (A2.window r 0 A.nrows r) (A2.window 0 n r A.ncols))).e k (n + j) =
        A2.e (r + s) k * A2.e k (n + j) := by
      intro k hk
      have hk := Finset.mem_range.1 hk
      rw [eZ, if_neg (by omega), eA2 (r + s) k, if_neg (by omega), eA1, if_neg (by omega)]
    rw [Finset.sum_congr rfl this, elem_add_self, zero_add]

end M4rie
