import Verif.Proofs.SliceRow
import Verif.Proofs.StrassenRec
import Verif.Spec.Gf2

/-! Packed multiplication through slices, and the dispatch in `mzed_mul`. -/

namespace M4rie
open M4rie.Spec

/-- bits as a ring homomorphism -/
def gf2Hom : Bool →+* ZMod 2 where
  toFun := gf2
  map_zero' := rfl
  map_one' := rfl
  map_add' a b := by cases a <;> cases b <;> decide
  map_mul' a b := by cases a <;> cases b <;> decide

theorem gf2Hom_apply (b : Bool) : gf2Hom b = gf2 b := rfl

variable {ff : Gf2e} [IsField ff]

theorem addmulKara_pack (C A B : Mat ff) (hr : C.nrows = A.nrows) (hc : C.ncols = B.ncols) (hi : A.ncols = B.nrows) :
    mzedAddmulKara? C.pack A.pack B.pack = some (C.addMulM A B).pack := by
  unfold mzedAddmulKara?
  rw [sliceNew_spack, Option.bind_some, sliceNew_spack, Option.bind_some, sliceNew_spack, Option.bind_some,
    sliceAddmulKara_spack C.trim A.trim B.trim hr hc, Option.bind_some, cling_pack C (C.trim.addMulM A.trim B.trim) rfl rfl]
  refine congrArg (fun X : Mat ff => some X.pack) ?_
  refine Mat.ext rfl rfl rfl ?_
  funext i j
  show (if i < C.nrows ∧ j < C.ncols then (if i < C.nrows ∧ j < C.ncols then
      (if i < C.nrows ∧ j < C.ncols then C.e i j else 0) + ∑ k ∈ Finset.range A.ncols, (if i < A.nrows ∧ k < A.ncols then A.e i k else 0) *
        (if k < B.nrows ∧ j < B.ncols then B.e k j else 0) else _) else C.e i j) =
    (if i < C.nrows ∧ j < C.ncols then C.e i j + ∑ k ∈ Finset.range A.ncols, A.e i k * B.e k j else C.e i j)
  by_cases h : i < C.nrows ∧ j < C.ncols
  · rw [if_pos h, if_pos h, if_pos h, if_pos h]
    refine congrArg (C.e i j + ·) (Finset.sum_congr rfl fun k hk => ?_)
    rw [Finset.mem_range] at hk
    rw [if_pos ⟨by omega, hk⟩, if_pos ⟨by omega, by omega⟩]
  · rw [if_neg h, if_neg h]

theorem scalar_addMulM (C A B : Mat ff) : (C.scalar 0).addMulM A B = C.mulM A B := by
  refine Mat.ext rfl rfl rfl ?_
  funext i j
  show (if i < C.nrows ∧ j < C.ncols then (if i < C.nrows ∧ j < C.ncols then (if i = j then 0 else 0) else C.e i j) +
    ∑ k ∈ Finset.range A.ncols, A.e i k * B.e k j else (if i < C.nrows ∧ j < C.ncols then (if i = j then 0 else 0) else C.e i j)) =
    (if i < C.nrows ∧ j < C.ncols then ∑ k ∈ Finset.range A.ncols, A.e i k * B.e k j else C.e i j)
  by_cases h : i < C.nrows ∧ j < C.ncols
  · rw [if_pos h, if_pos h, if_pos h]; simp
  · rw [if_neg h, if_neg h, if_neg h]

theorem scalar_mulM (C A B : Mat ff) : (C.scalar 0).mulM A B = C.mulM A B := by
  refine Mat.ext rfl rfl rfl ?_
  funext i j
  by_cases hij : i < C.nrows ∧ j < C.ncols
  · exact (if_pos hij).trans (if_pos hij).symm
  · exact (if_neg hij).trans ((if_neg hij).trans (if_neg hij).symm)

/-- what is assumed of the environment: M4RI's codebook tables are Gray codes, `__M4RI_MUL_BLOCKSIZE ≥ 16`, the integer part of
the square root is exact, and the L2 cache has at least 4096 bytes -/
structure MulEnv.Ok (env : MulEnv) (d : Nat) : Prop where
  cb : env.cb.Ok d
  bs : 16 ≤ env.bs
  sq : env.sq = Nat.sqrt
  l2 : 4096 ≤ env.l2

theorem strassenCutoff_ok {l2 d : Nat} (hl : 4096 ≤ l2) (h2 : 2 ≤ d) (h16 : d ≤ 16) :
    128 / (degreeToW d : Int) ≤ (strassenCutoff Nat.sqrt l2 d (degreeToW d) : Int) + 1 := by
  have q1 : 128 ≤ Nat.sqrt (4 * l2) := by
    rw [Nat.le_sqrt]; omega
  have q2 : 64 ≤ Nat.sqrt (4 * l2 / 4) := by
    rw [Nat.le_sqrt]; omega
  have hc : d = 2 ∨ d = 3 ∨ d = 4 ∨ d = 5 ∨ d = 6 ∨ d = 7 ∨ d = 8 ∨ d = 9 ∨ d = 10 ∨ d = 11 ∨ d = 12 ∨ d = 13 ∨ d = 14 ∨ d = 15 ∨
    d = 16 := by omega
  unfold strassenCutoff
  rcases hc with h | h | h | h | h | h | h | h | h | h | h | h | h | h | h <;> subst h
  · have : degreeToW 2 = 2 := rfl
    rw [this]; simp only; split_ifs <;> omega
  · have : degreeToW 3 = 4 := rfl
    rw [this]; simp only; split_ifs <;> omega
  · have : degreeToW 4 = 4 := rfl
    rw [this]; simp only; split_ifs <;> omega
  · have : degreeToW 5 = 8 := rfl
    rw [this]; simp only; split_ifs <;> omega
  · have : degreeToW 6 = 8 := rfl
    rw [this]; simp only; split_ifs <;> omega
  · have : degreeToW 7 = 8 := rfl
    rw [this]; simp only; split_ifs <;> omega
  · have : degreeToW 8 = 8 := rfl
    rw [this]; simp only; split_ifs <;> omega
  · have : degreeToW 9 = 16 := rfl
    rw [this]; simp only; split_ifs <;> omega
  · have : degreeToW 10 = 16 := rfl
    rw [this]; simp only; split_ifs <;> omega
  · have : degreeToW 11 = 16 := rfl
    rw [this]; simp only; split_ifs <;> omega
  · have : degreeToW 12 = 16 := rfl
    rw [this]; simp only; split_ifs <;> omega
  · have : degreeToW 13 = 16 := rfl
    rw [this]; simp only; split_ifs <;> omega
  · have : degreeToW 14 = 16 := rfl
    rw [this]; simp only; split_ifs <;> omega
  · have : degreeToW 15 = 16 := rfl
    rw [this]; simp only; split_ifs <;> omega
  · have : degreeToW 16 = 16 := rfl
    rw [this]; simp only; split_ifs <;> omega

variable {env : MulEnv} (henv : env.Ok ff.degree)
include henv

theorem envStrassenOk (m k n fuel : Nat) (hn : 0 < n) (hf : m + n < fuel) :
    strassenOk ff.degree (degreeToW ff.degree) (strassenCutoff env.sq env.l2 ff.degree (degreeToW ff.degree) : Int) fuel m k n = true := by
  have h2 := IsField.two_le (ff := ff)
  refine strassenOk_of_cutoff (by omega) okW_ff ?_ fuel m k n hn hf
  rw [henv.sq]
  exact strassenCutoff_ok henv.l2 h2 (Fact.out : FFOK ff).min.e16

/-- `_mzed_addmul` -/
theorem addmulRaw_pack (C A B : Mat ff) (hr : C.nrows = A.nrows) (hc : C.ncols = B.ncols) (hi : A.ncols = B.nrows) (hn : 0 < B.ncols) :
    mzedAddmulRaw? env C.pack A.pack B.pack = some (C.addMulM A B).pack := by
  unfold mzedAddmulRaw?
  by_cases h : A.nrows ≥ 512 ∧ A.ncols ≥ 512 ∧ B.ncols ≥ 512
  · exact (if_pos h).trans (addmulKara_pack C A B hr hc hi)
  · refine (if_neg h).trans ?_
    refine (addmulStrassen_pack (mulNj_pack henv.cb henv.bs) _ _ C A B hr hc hi.symm).trans ?_
    rw [show strassenDepth A.pack B.pack = A.nrows + B.ncols + 1 from rfl]
    exact if_pos (envStrassenOk henv A.nrows A.ncols B.ncols _ hn (Nat.lt_succ_self _))

/-- `_mzed_mul` into a cleared matrix -/
theorem mulRaw_pack (C A B : Mat ff) (hr : C.nrows = A.nrows) (hc : C.ncols = B.ncols) (hi : A.ncols = B.nrows) (hn : 0 < B.ncols) :
    mzedMulRaw? env (C.scalar 0).pack A.pack B.pack = some (C.mulM A B).pack := by
  unfold mzedMulRaw?
  by_cases h : A.nrows ≥ 512 ∧ A.ncols ≥ 512 ∧ B.ncols ≥ 512
  · refine (if_pos h).trans ?_
    rw [addmulKara_pack (C.scalar 0) A B hr hc hi, scalar_addMulM]
  · refine (if_neg h).trans ?_
    refine (mulStrassen_pack (mulNj_pack henv.cb henv.bs) _ _ (C.scalar 0) A B hr hc hi.symm).trans ?_
    rw [show strassenDepth A.pack B.pack = A.nrows + B.ncols + 1 from rfl, scalar_mulM]
    exact if_pos (envStrassenOk henv A.nrows A.ncols B.ncols _ hn (Nat.lt_succ_self _))

end M4rie
