import Verif.Proofs.EchPle
import Verif.Props.Ple
import Verif.Props.Echelon

/-!
# Properties C33, C36, C53: recursive PLE and PLUQ decomposition, elimination by PLE

`env : PleEnv` collects what is not part of M4RIE: the codebook of the Newton-John tables, the outcome of the comparison of
`w*ncols*nrows` with the cutoff (an arbitrary function, so the theorems hold for every cutoff and cache size)
and M4RI's `_mzd_compress_l`, of which the contract `CompressOk` (Proofs/PleRec.lean) is assumed.
-/

namespace M4rie.Props
open M4rie M4rie.Spec

variable {ff : Gf2e} [IsField ff]

/-- a PLE routine called on a sliced matrix `A` (contents `M`) returned `res`: as `DecomposedPLE` -/
def SDecomposedPLE (A : Slice) (M : Nat → Nat → Elem ff) (P Q : Nat → Nat) (res : Slice × (Nat → Nat) × (Nat → Nat) × Nat) : Prop :=
  ∃ (R : Slice) (F : Nat → Nat → Elem ff) (P' Q' : Nat → Nat), res = (R, P', Q', rank A.nrows A.ncols M) ∧ SSameDim R A ∧ SRep R F ∧
    IsPLE A.nrows A.ncols (rank A.nrows A.ncols M) M F P' Q' ∧
    IsEchelon (rank A.nrows A.ncols M) A.ncols (rank A.nrows A.ncols M) (ePart Q' F) Q' ∧
    rowSpan A.nrows A.ncols M = rowSpan (rank A.nrows A.ncols M) A.ncols (ePart Q' F) ∧
    (∀ i j, ¬ (i < A.nrows ∧ j < A.ncols) → F i j = M i j) ∧ (∀ i, A.nrows ≤ i → P' i = P i) ∧ (∀ i, A.ncols ≤ i → Q' i = Q i)

/-- **C33** `_mzd_slice_ple` computes a PLE decomposition and the rank of every matrix, whatever the cutoff: no step of the recursion
fails and it terminates. -/
theorem C33_slice_ple {env : PleEnv} (hc : CompressOk env.compress) (hcb : env.cb.Ok ff.degree) {A : Slice} {M : Nat → Nat → Elem ff} (h : SRep A M)
    (P Q : Nat → Nat) : ∃ res, mzdSlicePle? env A P Q = some res ∧ SDecomposedPLE A M P Q res := by
  obtain ⟨Z, P', Q', r, h1, h2, h3, h4, h5, h6, -⟩ := mzdSlicePle_spack hc hcb (⟨A.nrows, A.ncols, A.fid, M⟩ : Mat ff) P Q
  rw [← h.eq_spack'] at h1
  have hr : rank A.nrows A.ncols M = r := h3.rank_eq
  refine ⟨_, h1, ?_⟩
  unfold SDecomposedPLE
  rw [hr]
  exact ⟨Z.spack, Z.e, P', Q', rfl, ⟨h2.nrows, h2.ncols, h2.fid⟩, spack_rep Z, h3, h3.echelon, h3.rowSpan_eq, h4, h5, h6⟩

/-- **C33** `_mzed_ple` computes a PLE decomposition and the rank of every matrix, whatever the cutoff. -/
theorem C33_ple {env : PleEnv} (hc : CompressOk env.compress) (hcb : env.cb.Ok ff.degree) {A : Mzed} {M : Nat → Nat → Elem ff} (h : Rep A M)
    (P Q : Nat → Nat) : ∃ res, mzedPle? env A P Q = some res ∧ DecomposedPLE A M P Q res := by
  obtain ⟨Z, P', Q', r, h1, h2, h3, h4, h5, h6⟩ := mzedPle_pack hc hcb (⟨A.nrows, A.ncols, A.fid, M⟩ : Mat ff) P Q
  rw [← h.eq_pack'] at h1
  have hr : rank A.nrows A.ncols M = r := h3.rank_eq
  refine ⟨_, h1, ?_⟩
  unfold DecomposedPLE
  rw [hr]
  exact ⟨Z.pack, Z.e, P', Q', rfl, ⟨h2.nrows, h2.ncols, h2.fid⟩, pack_rep Z, h3, h3.echelon, h3.rowSpan_eq, h4, h5, h6⟩

/-- **C33** `_mzed_ple` and the naive algorithm find the same rank and the same pivot columns. -/
theorem C33_profile {env : PleEnv} (hc : CompressOk env.compress) (hcb : env.cb.Ok ff.degree) {A : Mzed} {M : Nat → Nat → Elem ff} (h : Rep A M)
    (P Q P0 Q0 : Nat → Nat) : ∃ res, mzedPle? env A P Q = some res ∧ res.2.2.2 = (mzedPleNaive A P0 Q0).2.2.2 ∧
      ∀ i, i < res.2.2.2 → res.2.2.1 i = (mzedPleNaive A P0 Q0).2.2.1 i := by
  obtain ⟨res, e, R, F, P', Q', rfl, -, -, d, -⟩ := C33_ple hc hcb h P Q
  obtain ⟨R2, F2, P2, Q2, e2, -, -, d2, -⟩ := C31_ple_naive h P0 Q0
  refine ⟨_, e, by rw [e2], fun i hi => ?_⟩
  rw [e2]
  exact (C31_pivots_unique d d2).2 i hi

/-- **C33** `_mzd_slice_pluq` computes a PLUQ decomposition and the rank of every matrix, whatever the cutoff. -/
theorem C33_slice_pluq {env : PleEnv} (hc : CompressOk env.compress) (hcb : env.cb.Ok ff.degree) {A : Slice} {M : Nat → Nat → Elem ff} (h : SRep A M)
    (P Q : Nat → Nat) : ∃ (R : Slice) (G : Nat → Nat → Elem ff) (P' Q' : Nat → Nat),
      mzdSlicePluq? env A P Q = some (R, P', Q', rank A.nrows A.ncols M) ∧ SSameDim R A ∧ SRep R G ∧
      IsPLUQ A.nrows A.ncols (rank A.nrows A.ncols M) M G P' Q' ∧
      (∀ i j, ¬ (i < A.nrows ∧ j < A.ncols) → G i j = M i j) ∧ (∀ i, A.nrows ≤ i → P' i = P i) ∧ (∀ i, A.ncols ≤ i → Q' i = Q i) := by
  obtain ⟨Z, G, P', Q', r, h1, h2, h3, hG, hL, h4, h5, h6, -⟩ := mzdSlicePluq_spack hc hcb (⟨A.nrows, A.ncols, A.fid, M⟩ : Mat ff) P Q
  rw [← h.eq_spack'] at h1
  have hr : rank A.nrows A.ncols M = r := h3.rank_eq
  rw [hr]
  exact ⟨G.spack, G.e, P', Q', h1, ⟨h2.nrows, h2.ncols, h2.fid⟩, spack_rep G, h3.pluq hG hL, h4, h5, h6⟩

theorem EchOk.rank_eq {X : Mat ff} {full : Bool} {R : Mat ff} {r : Nat} (h : EchOk X full R r) : rank X.nrows X.ncols X.e = r := by
  obtain ⟨piv, -, h2, -, h4, -⟩ := h
  have := h2.rank_eq
  unfold rank at this ⊢
  rw [h4] at this
  exact this

/-- **C36** `mzd_slice_echelonize_ple(A,full)`: for every matrix the result is in row echelon form with unit pivots (reduced if
`full`), has the same row space, the same contents outside the matrix, and the returned number is the rank of the input. -/
theorem C36_slice_echelonize_ple {env : PleEnv} (hc : CompressOk env.compress) (hcb : env.cb.Ok ff.degree) {A : Slice} {M : Nat → Nat → Elem ff} (h : SRep A M)
    (full : Bool) : ∃ (R : Slice) (M' : Nat → Nat → Elem ff) (piv : Nat → Nat),
      mzdSliceEchelonizePle? env A full = some (R, rank A.nrows A.ncols M) ∧ SSameDim R A ∧ SRep R M' ∧
      IsEchelon A.nrows A.ncols (rank A.nrows A.ncols M) M' piv ∧
      (full = true → IsRref A.nrows A.ncols (rank A.nrows A.ncols M) M' piv) ∧
      rowSpan A.nrows A.ncols M' = rowSpan A.nrows A.ncols M ∧
      (∀ i j, A.nrows ≤ i ∨ A.ncols ≤ j → M' i j = M i j) := by
  obtain ⟨R, r, h1, h2⟩ := mzdSliceEchelonizePle_spack hc hcb (⟨A.nrows, A.ncols, A.fid, M⟩ : Mat ff) full
  rw [← h.eq_spack'] at h1
  have hr : rank A.nrows A.ncols M = r := EchOk.rank_eq h2
  rw [hr]
  obtain ⟨piv, s, a, b, c, f⟩ := h2
  exact ⟨R.spack, R.e, piv, h1, ⟨s.nrows, s.ncols, s.fid⟩, spack_rep R, a, b, c, fun i j hij => f i j (by
    show ¬ (i < A.nrows ∧ j < A.ncols); omega)⟩

/-- **C36** `mzed_echelonize_ple(A,full)`. -/
theorem C36_echelonize_ple {env : PleEnv} (hc : CompressOk env.compress) (hcb : env.cb.Ok ff.degree) {A : Mzed} {M : Nat → Nat → Elem ff} (h : Rep A M)
    (full : Bool) : ∃ (R : Mzed) (M' : Nat → Nat → Elem ff) (piv : Nat → Nat),
      mzedEchelonizePle? env A full = some (R, rank A.nrows A.ncols M) ∧ SameDim R A ∧ Rep R M' ∧
      IsEchelon A.nrows A.ncols (rank A.nrows A.ncols M) M' piv ∧
      (full = true → IsRref A.nrows A.ncols (rank A.nrows A.ncols M) M' piv) ∧
      rowSpan A.nrows A.ncols M' = rowSpan A.nrows A.ncols M ∧
      (∀ i j, A.nrows ≤ i ∨ A.ncols ≤ j → M' i j = M i j) := by
  obtain ⟨R, r, h1, h2⟩ := mzedEchelonizePle_pack hc hcb (⟨A.nrows, A.ncols, A.fid, M⟩ : Mat ff) full
  rw [← h.eq_pack'] at h1
  have hr : rank A.nrows A.ncols M = r := EchOk.rank_eq h2
  rw [hr]
  obtain ⟨piv, s, a, b, c, f⟩ := h2
  exact ⟨R.pack, R.e, piv, h1, ⟨s.nrows, s.ncols, s.fid⟩, pack_rep R, a, b, c, fun i j hij => f i j (by
    show ¬ (i < A.nrows ∧ j < A.ncols); omega)⟩

/-- **C36** with `full`, elimination by PLE and the naive algorithm leave the same matrix, bit for bit. -/
theorem C36_agrees_with_naive {env : PleEnv} (hc : CompressOk env.compress) (hcb : env.cb.Ok ff.degree) {A : Mzed} {M : Nat → Nat → Elem ff} (h : Rep A M) :
    mzedEchelonizePle? env A true = some (mzedEchelonizeNaive A true) := by
  obtain ⟨R, M', piv, h1, h2, h3, h4, h5, h6, h7⟩ := C36_echelonize_ple hc hcb h true
  obtain ⟨S, N', qiv, g1, g2, g3, g4, g5, g6, g7⟩ := C34_echelonize_naive h true
  rw [h1, g1]
  have hu := (h5 rfl).unique (g5 rfl) (by rw [h6, g6])
  have : M' = N' := by
    funext i j
    by_cases hij : i < A.nrows ∧ j < A.ncols
    · exact hu.2.2 i hij.1 j hij.2
    · rw [h7 i j (by omega), g7 i j (by omega)]
  rw [h3.eq_pack h2, g3.eq_pack g2, this]

/-- **C53** `mzed_echelonize(A,full)`, whichever algorithm it selects: echelon form, row space and rank. -/
theorem C53_echelonize {env : PleEnv} (hc : CompressOk env.compress) (hcb : env.cb.Ok ff.degree) (optK : Nat) (smallNj : Bool) (medium : Nat → Nat → Bool)
    {A : Mzed} {M : Nat → Nat → Elem ff} (h : Rep A M) (full : Bool) : ∃ (R : Mzed) (M' : Nat → Nat → Elem ff) (piv : Nat → Nat),
      mzedEchelonize? env optK smallNj medium A full = some (R, rank A.nrows A.ncols M) ∧ SameDim R A ∧ Rep R M' ∧
      IsEchelon A.nrows A.ncols (rank A.nrows A.ncols M) M' piv ∧
      (full = true → IsRref A.nrows A.ncols (rank A.nrows A.ncols M) M' piv) ∧
      rowSpan A.nrows A.ncols M' = rowSpan A.nrows A.ncols M ∧
      (∀ i j, A.nrows ≤ i ∨ A.ncols ≤ j → M' i j = M i j) := by
  unfold mzedEchelonize?
  split_ifs
  · obtain ⟨R, M', piv, h1, h2⟩ := C34_echelonize_naive h full
    exact ⟨R, M', piv, by rw [h1], h2⟩
  · obtain ⟨R, M', piv, h1, h2⟩ := C35_echelonize_newton_john hcb optK smallNj h full
    exact ⟨R, M', piv, by rw [h1], h2⟩
  · exact C36_echelonize_ple hc hcb h full

/-- **C53** the reduced echelon form does not depend on the algorithm selected: it is that of the naive algorithm, bit for bit. -/
theorem C53_full {env : PleEnv} (hc : CompressOk env.compress) (hcb : env.cb.Ok ff.degree) (optK : Nat) (smallNj : Bool) (medium : Nat → Nat → Bool)
    {A : Mzed} {M : Nat → Nat → Elem ff} (h : Rep A M) : mzedEchelonize? env optK smallNj medium A true = some (mzedEchelonizeNaive A true) := by
  unfold mzedEchelonize?
  split_ifs
  · rfl
  · rw [C35_agrees_with_naive hcb optK smallNj h]
  · exact C36_agrees_with_naive hc hcb h

/-- **C53** `mzed_echelonize_ple` and `mzed_echelonize` through a conversion: the sliced routine gives the same matrix as the packed. -/
theorem C53_slice_full {env : PleEnv} (hc : CompressOk env.compress) (hcb : env.cb.Ok ff.degree) {A : Slice} {B : Mzed} {M N : Nat → Nat → Elem ff}
    (hA : SRep A M) (hB : Rep B N) (hr : A.nrows = B.nrows) (hn : A.ncols = B.ncols) (hMN : ∀ i j, i < A.nrows → j < A.ncols → M i j = N i j) :
    ∃ (R : Slice) (M' N' : Nat → Nat → Elem ff), mzdSliceEchelonizePle? env A true = some (R, (mzedEchelonizeNaive B true).2) ∧ SRep R M' ∧
      Rep (mzedEchelonizeNaive B true).1 N' ∧ ∀ i j, i < A.nrows → j < A.ncols → M' i j = N' i j := by
  obtain ⟨R, M', piv, h1, h2, h3, h4, h5, h6, h7⟩ := C36_slice_echelonize_ple hc hcb hA true
  obtain ⟨S, N', qiv, g1, g2, g3, g4, g5, g6, g7⟩ := C34_echelonize_naive hB true
  have hk : rank A.nrows A.ncols M = rank B.nrows B.ncols N := by
    have : rank A.nrows A.ncols M = rank A.nrows A.ncols N := by
      unfold rank
      rw [rowSpan_congr fun i hi j hj => hMN i j hi hj]
    rw [this, hr, hn]
  have g5' := g5 rfl
  rw [← hr, ← hn] at g5' g6
  have hu := (h5 rfl).unique g5' (by rw [h6, g6]; exact rowSpan_congr fun i hi j hj => hMN i j hi hj)
  exact ⟨R, M', N', by rw [h1, g1, hk], h3, by rw [g1]; exact g3, fun i j hi hj => hu.2.2 i hi j hj⟩

/-- an environment meeting the contracts that always recurses (up to the 64 columns of the base case) -/
def pleEnv0 : PleEnv := ⟨grayCode, fun _ _ => false, fun nr _ M r1 n1 r2 => swapDown nr r1 n1 r2 M⟩

theorem pleEnv0_ok : CompressOk pleEnv0.compress := fun _ _ _ _ _ _ _ _ _ _ => rfl

/-- environments as in M4RIE: the cutoff decides -/
def pleEnv1 (ff : Gf2e) (l2 : Nat) (cutoff : Int) : PleEnv :=
  ⟨grayCode, pleSmall (degreeToW ff.degree) l2 cutoff, fun nr _ M r1 n1 r2 => swapDown nr r1 n1 r2 M⟩

/-- a 150x200 matrix (two levels of recursion) whose first half has rank 1, with every cutoff -/
example : ∃ ff, ∃ _ : IsField ff, CompressOk pleEnv0.compress ∧ pleEnv0.cb.Ok ff.degree ∧ (∀ l2 cutoff, CompressOk (pleEnv1 ff l2 cutoff).compress) ∧
    ∃ (A : Slice) (M : Nat → Nat → Elem ff), SRep A M ∧ A.nrows = 150 ∧ A.ncols = 200 ∧ M 0 0 = 0 ∧ M 1 0 = 1 ∧ M 0 150 = 1 := by
  obtain ⟨ff, h, hd⟩ := exists_aes
  exact ⟨ff, h, pleEnv0_ok, grayCode_ok _, fun _ _ _ _ _ _ _ _ _ _ _ _ => rfl, _, _,
    spack_rep ⟨150, 200, 0, fun i j => if (i = 1 ∧ j = 0) ∨ (100 < j ∧ j = 150 + i) then 1 else 0⟩, rfl, rfl, by simp, by simp, by simp⟩

example : ∃ ff, ∃ _ : IsField ff, CompressOk pleEnv0.compress ∧ pleEnv0.cb.Ok ff.degree ∧
    ∃ (A : Mzed) (M : Nat → Nat → Elem ff), Rep A M ∧ A.nrows = 150 ∧ A.ncols = 200 ∧ M 0 0 = 0 ∧ M 1 0 = 1 ∧ M 0 150 = 1 := by
  obtain ⟨ff, h, hd⟩ := exists_aes
  exact ⟨ff, h, pleEnv0_ok, grayCode_ok _, _, _,
    pack_rep ⟨150, 200, 0, fun i j => if (i = 1 ∧ j = 0) ∨ (100 < j ∧ j = 150 + i) then 1 else 0⟩, rfl, rfl, by simp, by simp, by simp⟩

end M4rie.Props
