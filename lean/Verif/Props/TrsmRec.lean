import Verif.Proofs.TrsmRec
import Verif.Props.Trsm
import Verif.Props.Kara

/-!
# Properties C29 (sliced matrices) and C30 (block-recursive solvers)
-/

namespace M4rie.Props
open M4rie M4rie.Spec

variable {ff : Gf2e} [IsField ff]

/-- the sliced matrix `R` holds the solution `X` of `L*X = B` and nothing else changes -/
def SSolvedLower (R B : Slice) (L MB : Nat → Nat → Elem ff) : Prop :=
  ∃ X : Nat → Nat → Elem ff, SRep R X ∧ SSameDim R B ∧ SolvesLower B.nrows B.ncols L X MB ∧
    ∀ i j, ¬ (i < B.nrows ∧ j < B.ncols) → X i j = MB i j

def SSolvedUpper (R B : Slice) (U MB : Nat → Nat → Elem ff) : Prop :=
  ∃ X : Nat → Nat → Elem ff, SRep R X ∧ SSameDim R B ∧ SolvesUpper B.nrows B.ncols U X MB ∧
    ∀ i j, ¬ (i < B.nrows ∧ j < B.ncols) → X i j = MB i j

section sliced
variable {A B : Slice} {MA MB : Nat → Nat → Elem ff} (hA : SRep A MA) (hB : SRep B MB) (hr : A.nrows = B.nrows) (hc : A.ncols = B.nrows)
  (hd : ∀ i, i < B.nrows → MA i i ≠ 0) (hn : 0 < B.ncols)
include hA hB hr hc hd hn

theorem toSL {f : Slice → Slice → Option Slice}
    (h : ∃ X : Mat ff, f (Mat.spack ⟨A.nrows, A.ncols, A.fid, MA⟩) (Mat.spack ⟨B.nrows, B.ncols, B.fid, MB⟩) = some X.spack ∧
      SolL ⟨A.nrows, A.ncols, A.fid, MA⟩ ⟨B.nrows, B.ncols, B.fid, MB⟩ X) : ∃ R, f A B = some R ∧ SSolvedLower R B MA MB := by
  obtain ⟨X, e, h⟩ := h
  rw [← hA.eq_spack', ← hB.eq_spack'] at e
  exact ⟨_, e, X.e, spack_rep X, ⟨h.same.nrows, h.same.ncols, h.same.fid⟩, h.solves, h.frame⟩

theorem toSU {f : Slice → Slice → Option Slice}
    (h : ∃ X : Mat ff, f (Mat.spack ⟨A.nrows, A.ncols, A.fid, MA⟩) (Mat.spack ⟨B.nrows, B.ncols, B.fid, MB⟩) = some X.spack ∧
      SolU ⟨A.nrows, A.ncols, A.fid, MA⟩ ⟨B.nrows, B.ncols, B.fid, MB⟩ X) : ∃ R, f A B = some R ∧ SSolvedUpper R B MA MB := by
  obtain ⟨X, e, h⟩ := h
  rw [← hA.eq_spack', ← hB.eq_spack'] at e
  exact ⟨_, e, X.e, spack_rep X, ⟨h.same.nrows, h.same.ncols, h.same.fid⟩, h.solves, h.frame⟩

/-- **C29** `mzd_slice_trsm_lower_left_naive`. -/
theorem C29_slice_lower_naive : ∃ R, mzdSliceTrsmLowerLeftNaive? A B = some R ∧ SSolvedLower R B MA MB :=
  toSL hA hB hr hc hd hn (sliceTrsmLowerNaive_spack _ _ hr hc hn hd)

/-- **C29** `mzd_slice_trsm_upper_left_naive`. -/
theorem C29_slice_upper_naive : ∃ R, mzdSliceTrsmUpperLeftNaive? A B = some R ∧ SSolvedUpper R B MA MB :=
  toSU hA hB hr hc hd hn (sliceTrsmUpperNaive_spack _ _ hr hc hn hd)

/-- **C29** `mzd_slice_trsm_lower_left_newton_john`. -/
theorem C29_slice_lower_newton_john {cb : Codebook} (hcb : cb.Ok ff.degree) :
    ∃ R, mzdSliceTrsmLowerLeftNewtonJohn? cb A B = some R ∧ SSolvedLower R B MA MB :=
  toSL hA hB hr hc hd hn (sliceTrsmLowerNj_spack hcb _ _ hr hc hn hd)

/-- **C29** `mzd_slice_trsm_upper_left_newton_john`. -/
theorem C29_slice_upper_newton_john {cb : Codebook} (hcb : cb.Ok ff.degree) :
    ∃ R, mzdSliceTrsmUpperLeftNewtonJohn? cb A B = some R ∧ SSolvedUpper R B MA MB :=
  toSU hA hB hr hc hd hn (sliceTrsmUpperNj_spack hcb _ _ hr hc hn hd)

/-- **C30** `_mzd_slice_trsm_lower_left` terminates for every cutoff of at least 64 and solves the system. -/
theorem C30_slice_lower {cb : Codebook} (hcb : cb.Ok ff.degree) {cutoff : Int} (hcut : 64 ≤ cutoff) (hf : A.fid = B.fid) :
    ∃ R, mzdSliceTrsmLowerLeft? cb A B cutoff = some R ∧ SSolvedLower R B MA MB :=
  toSL (f := fun A B => mzdSliceTrsmLowerLeft? cb A B cutoff) hA hB hr hc hd hn
    (trsmLowerF_pk (sliceTrsmLaws hcb) hcut _ _ _ (Nat.lt_succ_self _) hr hc hf hn hd)

/-- **C30** `_mzd_slice_trsm_upper_left`. -/
theorem C30_slice_upper {cb : Codebook} (hcb : cb.Ok ff.degree) {cutoff : Int} (hcut : 64 ≤ cutoff) (hf : A.fid = B.fid) :
    ∃ R, mzdSliceTrsmUpperLeft? cb A B cutoff = some R ∧ SSolvedUpper R B MA MB :=
  toSU (f := fun A B => mzdSliceTrsmUpperLeft? cb A B cutoff) hA hB hr hc hd hn
    (trsmUpperF_pk (sliceTrsmLaws hcb) hcut _ _ _ (Nat.lt_succ_self _) hr hc hf hn hd)

/-- **C30** `mzd_slice_trsm_lower_left` and `mzd_slice_trsm_upper_left` (the default cutoff). -/
theorem C30_slice_default {cb : Codebook} (hcb : cb.Ok ff.degree) (hf : A.fid = B.fid) :
    (∃ R, mzdSliceTrsmLowerLeft? cb A B mzedTrsmCutoff = some R ∧ SSolvedLower R B MA MB) ∧
    (∃ R, mzdSliceTrsmUpperLeft? cb A B mzedTrsmCutoff = some R ∧ SSolvedUpper R B MA MB) :=
  ⟨C30_slice_lower hA hB hr hc hd hn hcb (by decide) hf, C30_slice_upper hA hB hr hc hd hn hcb (by decide) hf⟩

/-- **C30** the sliced recursion computes exactly what the sliced naive solver computes, word for word. -/
theorem C30_slice_eq_naive {cb : Codebook} (hcb : cb.Ok ff.degree) {cutoff : Int} (hcut : 64 ≤ cutoff) (hf : A.fid = B.fid) :
    (∃ R, mzdSliceTrsmLowerLeft? cb A B cutoff = some R ∧ mzdSliceTrsmLowerLeftNaive? A B = some R) ∧
    (∃ R, mzdSliceTrsmUpperLeft? cb A B cutoff = some R ∧ mzdSliceTrsmUpperLeftNaive? A B = some R) := by
  have u : ∀ {R R' : Slice} {X X' : Nat → Nat → Elem ff}, SRep R X → SSameDim R B → SRep R' X' → SSameDim R' B →
      (∀ i j, i < B.nrows → j < B.ncols → X i j = X' i j) → (∀ i j, ¬ (i < B.nrows ∧ j < B.ncols) → X i j = MB i j) →
      (∀ i j, ¬ (i < B.nrows ∧ j < B.ncols) → X' i j = MB i j) → R = R' := by
    intro R R' X X' h1 h2 h3 h4 h5 h6 h7
    have : X = X' := by
      funext i j
      by_cases h : i < B.nrows ∧ j < B.ncols
      · exact h5 i j h.1 h.2
      · rw [h6 i j h, h7 i j h]
    rw [h1.eq_spack h2, h3.eq_spack h4, this]
  constructor
  · obtain ⟨R, e, X, h1, h2, h3, h4⟩ := C30_slice_lower hA hB hr hc hd hn hcb hcut hf
    obtain ⟨R', e', X', h1', h2', h3', h4'⟩ := C29_slice_lower_naive hA hB hr hc hd hn
    exact ⟨R, e, by rw [e', u h1 h2 h1' h2' ((C29_unique hd).1 h3 h3') h4 h4']⟩
  · obtain ⟨R, e, X, h1, h2, h3, h4⟩ := C30_slice_upper hA hB hr hc hd hn hcb hcut hf
    obtain ⟨R', e', X', h1', h2', h3', h4'⟩ := C29_slice_upper_naive hA hB hr hc hd hn
    exact ⟨R, e, by rw [e', u h1 h2 h1' h2' ((C29_unique hd).2 h3 h3') h4 h4']⟩

end sliced

section packed
variable {A B : Mzed} {MA MB : Nat → Nat → Elem ff} (hA : Rep A MA) (hB : Rep B MB) (hr : A.nrows = B.nrows) (hc : A.ncols = B.nrows)
  (hf : A.fid = B.fid) (hd : ∀ i, i < B.nrows → MA i i ≠ 0) (hn : 0 < B.ncols) {env : MulEnv} (henv : env.Ok ff.degree)
include hA hB hr hc hf hd hn henv

/-- **C30** `_mzed_trsm_lower_left` terminates for every cutoff of at least 64 and solves the system. -/
theorem C30_lower {cutoff : Int} (hcut : 64 ≤ cutoff) : ∃ R, mzedTrsmLowerLeft? env A B cutoff = some R ∧ SolvedLower R B MA MB := by
  obtain ⟨X, e, h⟩ := trsmLowerF_pk (mzedTrsmLaws henv) hcut (B.nrows + 1) ⟨A.nrows, A.ncols, A.fid, MA⟩ ⟨B.nrows, B.ncols, B.fid, MB⟩
    (Nat.lt_succ_self _) hr hc hf hn hd
  rw [← hA.eq_pack', ← hB.eq_pack'] at e
  exact ⟨_, e, X.e, pack_rep X, ⟨h.same.nrows, h.same.ncols, h.same.fid⟩, h.solves, h.frame⟩

/-- **C30** `_mzed_trsm_upper_left`. -/
theorem C30_upper {cutoff : Int} (hcut : 64 ≤ cutoff) : ∃ R, mzedTrsmUpperLeft? env A B cutoff = some R ∧ SolvedUpper R B MA MB := by
  obtain ⟨X, e, h⟩ := trsmUpperF_pk (mzedTrsmLaws henv) hcut (B.nrows + 1) ⟨A.nrows, A.ncols, A.fid, MA⟩ ⟨B.nrows, B.ncols, B.fid, MB⟩
    (Nat.lt_succ_self _) hr hc hf hn hd
  rw [← hA.eq_pack', ← hB.eq_pack'] at e
  exact ⟨_, e, X.e, pack_rep X, ⟨h.same.nrows, h.same.ncols, h.same.fid⟩, h.solves, h.frame⟩

/-- **C30** `mzed_trsm_lower_left` and `mzed_trsm_upper_left` (the default cutoff). -/
theorem C30_default :
    (∃ R, mzedTrsmLowerLeft? env A B mzedTrsmCutoff = some R ∧ SolvedLower R B MA MB) ∧
    (∃ R, mzedTrsmUpperLeft? env A B mzedTrsmCutoff = some R ∧ SolvedUpper R B MA MB) :=
  ⟨C30_lower hA hB hr hc hf hd hn henv (by decide), C30_upper hA hB hr hc hf hd hn henv (by decide)⟩

/-- **C30** the recursion computes exactly what the naive solver computes, word for word. -/
theorem C30_eq_naive {cutoff : Int} (hcut : 64 ≤ cutoff) :
    mzedTrsmLowerLeft? env A B cutoff = some (mzedTrsmLowerLeftNaive A B) ∧ mzedTrsmUpperLeft? env A B cutoff = some (mzedTrsmUpperLeftNaive A B) := by
  have u : ∀ {R R' : Mzed} {X X' : Nat → Nat → Elem ff}, Rep R X → SameDim R B → Rep R' X' → SameDim R' B →
      (∀ i j, i < B.nrows → j < B.ncols → X i j = X' i j) → (∀ i j, ¬ (i < B.nrows ∧ j < B.ncols) → X i j = MB i j) →
      (∀ i j, ¬ (i < B.nrows ∧ j < B.ncols) → X' i j = MB i j) → R = R' := by
    intro R R' X X' h1 h2 h3 h4 h5 h6 h7
    have : X = X' := by
      funext i j
      by_cases h : i < B.nrows ∧ j < B.ncols
      · exact h5 i j h.1 h.2
      · rw [h6 i j h, h7 i j h]
    rw [h1.eq_pack h2, h3.eq_pack h4, this]
  constructor
  · obtain ⟨R, e, X, h1, h2, h3, h4⟩ := C30_lower hA hB hr hc hf hd hn henv hcut
    obtain ⟨X', h1', h2', h3', h4'⟩ := C29_lower_naive hA hB hd hn
    rw [e, u h1 h2 h1' h2' ((C29_unique hd).1 h3 h3') h4 h4']
  · obtain ⟨R, e, X, h1, h2, h3, h4⟩ := C30_upper hA hB hr hc hf hd hn henv hcut
    obtain ⟨X', h1', h2', h3', h4'⟩ := C29_upper_naive hA hB hd hn
    rw [e, u h1 h2 h1' h2' ((C29_unique hd).2 h3 h3') h4 h4']
end packed

/-- **C30, the bound is needed**: with a cutoff below the number of rows and columns, and at most 63 rows, the recursion asks for a
window reaching below the last row, whatever the data. -/
theorem C30_violation (env : MulEnv) (L B : Mzed) (cutoff : Int) (h1 : L.nrows = B.nrows) (h2 : B.nrows < 64) (h3 : cutoff < B.nrows)
    (h4 : cutoff < B.ncols) : mzedTrsmLowerLeft? env L B cutoff = none ∧ mzedTrsmUpperLeft? env L B cutoff = none := by
  have hb : ¬ (((mzedTrsmOps env).nrows L : Int) ≤ cutoff ∨ ((mzedTrsmOps env).ncols B : Int) ≤ cutoff) := by
    show ¬ ((L.nrows : Int) ≤ cutoff ∨ (B.ncols : Int) ≤ cutoff)
    omega
  have hs : (mzedTrsmOps env).nrows B < trsmSplit ((mzedTrsmOps env).nrows L) := by
    show B.nrows < trsmSplit L.nrows
    unfold trsmSplit
    omega
  unfold mzedTrsmLowerLeft? mzedTrsmUpperLeft?
  rw [trsmLowerF, trsmUpperF, if_neg hb, if_neg hb]
  exact ⟨if_pos hs, if_pos hs⟩

/-- operands meeting the hypotheses: a 1500x1500 triangle and a 1500x700 right hand side, so that the default cutoff recurses -/
example : ∃ ff, ∃ _ : IsField ff, ∃ env : MulEnv, env.Ok ff.degree ∧ ∃ (A B : Mzed) (MA MB : Nat → Nat → Elem ff), Rep A MA ∧ Rep B MB ∧
    A.nrows = B.nrows ∧ A.ncols = B.nrows ∧ A.fid = B.fid ∧ (∀ i, i < B.nrows → MA i i ≠ 0) ∧ 0 < B.ncols ∧
    mzedTrsmCutoff < A.nrows ∧ mzedTrsmCutoff < B.ncols ∧ MA 3 1 = 1 ∧ MA 1 3 = 1 := by
  obtain ⟨ff, h, hd⟩ := exists_aes
  obtain ⟨env, he⟩ : ∃ env : MulEnv, env.Ok ff.degree := ⟨⟨grayCode, 2048, Nat.sqrt, 1 <<< 20⟩, ⟨grayCode_ok _, by decide, rfl, by decide⟩⟩
  refine ⟨ff, h, env, he, _, _, _, _, pack_rep ⟨1500, 1500, 0, fun _ _ => 1⟩, pack_rep ⟨1500, 700, 0, fun i j => if i = j then 1 else 0⟩,
    rfl, rfl, rfl, fun _ _ => one_ne_zero, by show 0 < 700; norm_num, ?_, ?_, rfl, rfl⟩
  · show (512 : Int) < (1500 : Nat); norm_num
  · show (512 : Int) < (700 : Nat); norm_num

/-- the same for sliced matrices -/
example : ∃ ff, ∃ _ : IsField ff, ∃ cb : Codebook, cb.Ok ff.degree ∧ ∃ (A B : Slice) (MA MB : Nat → Nat → Elem ff), SRep A MA ∧ SRep B MB ∧
    A.nrows = B.nrows ∧ A.ncols = B.nrows ∧ A.fid = B.fid ∧ (∀ i, i < B.nrows → MA i i ≠ 0) ∧ 0 < B.ncols ∧
    mzedTrsmCutoff < A.nrows ∧ mzedTrsmCutoff < B.ncols := by
  obtain ⟨ff, h, hd⟩ := exists_aes
  refine ⟨ff, h, grayCode, grayCode_ok _, _, _, _, _, spack_rep ⟨1500, 1500, 0, fun _ _ => 1⟩, spack_rep ⟨1500, 700, 0, fun i j => if i = j then 1 else 0⟩,
    rfl, rfl, rfl, fun _ _ => one_ne_zero, by show 0 < 700; norm_num, ?_, ?_⟩
  · show (512 : Int) < (1500 : Nat); norm_num
  · show (512 : Int) < (700 : Nat); norm_num

end M4rie.Props
