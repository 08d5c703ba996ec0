import Verif.Proofs.SpaceTrsm
import Verif.Props.SpaceElim
import Verif.Props.TrsmRec

/-!
# C83: how much memory solving packed triangular systems takes
-/

namespace M4rie.Props
open M4rie M4rie.Spec

variable {ff : Gf2e} [IsField ff]

section
variable {A B : Mzed} {MA MB : Nat → Nat → Elem ff} (hA : Rep A MA) (hB : Rep B MB) (hr : A.nrows = B.nrows) (hc : A.ncols = B.nrows)
  (hf : A.fid = B.fid) (hd : ∀ i, i < B.nrows → MA i i ≠ 0) (hn : 0 < B.ncols) {env : MulEnv} (henv : env.Ok ff.degree)
include hA hB hr hc hf hd hn henv

/-- **C83** `_mzed_trsm_lower_left(L,B,cutoff)` and `_mzed_trsm_upper_left(U,B,cutoff)`, however deep the recursion goes: no more than their multiplications take, that is, either (Karatsuba) `e + 1`
matrices over GF(2) for each of `B` and the triangular matrix, or (Strassen) a packed copy of `B` or a third of `B` and the triangular matrix together, and eight tables. -/
theorem C83_trsm {cutoff : Int} (hcut : 64 ≤ cutoff) : ∃ R R' l l', mzedTrsmLowerLeft? env A B cutoff = some R ∧ mzedTrsmUpperLeft? env A B cutoff = some R' ∧
    Balanced (mzedTrsmLowerLeftT env A B cutoff) (some R) l ∧ Balanced (mzedTrsmUpperLeftT env A B cutoff) (some R') l' ∧
    peak l ≤ (max ((ff.degree + 1) * (gf2Words B.nrows B.ncols + gf2Words B.nrows B.nrows))
      (max (packedWords (degreeToW ff.degree) B.nrows B.ncols) ((packedWords (degreeToW ff.degree) B.nrows B.nrows + packedWords (degreeToW ff.degree) B.nrows B.ncols) / 3) +
        8 * tableWords ff.degree (degreeToW ff.degree) B.ncols) : Nat) ∧
    peak l' ≤ (max ((ff.degree + 1) * (gf2Words B.nrows B.ncols + gf2Words B.nrows B.nrows))
      (max (packedWords (degreeToW ff.degree) B.nrows B.ncols) ((packedWords (degreeToW ff.degree) B.nrows B.nrows + packedWords (degreeToW ff.degree) B.nrows B.ncols) / 3) +
        8 * tableWords ff.degree (degreeToW ff.degree) B.ncols) : Nat) := by
  obtain ⟨R, e, -⟩ := C30_lower hA hB hr hc hf hd hn henv hcut
  obtain ⟨R', e', -⟩ := C30_upper hA hB hr hc hf hd hn henv hcut
  obtain ⟨l, a1, a2, a3⟩ := packedLowerF_gives henv hcut (B.nrows + 1) (⟨A.nrows, A.ncols, A.fid, MA⟩ : Mat ff) [] (⟨B.nrows, B.ncols, B.fid, MB⟩ : Mat ff)
    (Nat.lt_succ_self _) hr hc hf hn hd
  obtain ⟨l', b1, b2, b3⟩ := packedUpperF_gives henv hcut (B.nrows + 1) (⟨A.nrows, A.ncols, A.fid, MA⟩ : Mat ff) [] (⟨B.nrows, B.ncols, B.fid, MB⟩ : Mat ff)
    (Nat.lt_succ_self _) hr hc hf hn hd
  rw [← hA.eq_pack', ← hB.eq_pack'] at a1 b1
  refine ⟨R, R', l, l', e, e', ⟨?_, a2⟩, ⟨?_, b2⟩, a3, b3⟩
  · rw [← e]; exact a1
  · rw [← e']; exact b1

omit hc hd hn henv hf in
/-- **C83** without recursion, nothing up to `2^e` rows, and otherwise one table. -/
theorem C83_trsm_direct {cutoff : Int} (h : (B.nrows : Int) ≤ cutoff ∨ (B.ncols : Int) ≤ cutoff) : ∃ R R' l, mzedTrsmLowerLeft? env A B cutoff = some R ∧
    mzedTrsmUpperLeft? env A B cutoff = some R' ∧ Balanced (mzedTrsmLowerLeftT env A B cutoff) (some R) l ∧ Balanced (mzedTrsmUpperLeftT env A B cutoff) (some R') l ∧
    peak l = (if B.nrows ≤ 2 ^ ff.degree then 0 else tableWords ff.degree (degreeToW ff.degree) B.ncols : Nat) := by
  obtain ⟨s1, s2⟩ := packedSolveTrace_size ff.degree B.nrows B.ncols
  have t1 := packedLowerLeaf_traces env.cb (⟨A.nrows, A.ncols, A.fid, MA⟩ : Mat ff) (⟨B.nrows, B.ncols, B.fid, MB⟩ : Mat ff) hr
  have t2 := packedUpperLeaf_traces env.cb (⟨A.nrows, A.ncols, A.fid, MA⟩ : Mat ff) (⟨B.nrows, B.ncols, B.fid, MB⟩ : Mat ff) hr
  rw [← hA.eq_pack', ← hB.eq_pack'] at t1 t2
  have hb2 : ((mzedTrsmOps env).nrows A : Int) ≤ cutoff ∨ ((mzedTrsmOps env).ncols B : Int) ≤ cutoff := by
    show (A.nrows : Int) ≤ cutoff ∨ (B.ncols : Int) ≤ cutoff
    rwa [hr]
  refine ⟨mzedTrsmLowerLeftNewtonJohn env.cb A B, mzedTrsmUpperLeftNewtonJohn env.cb A B, _, ?_, ?_, ⟨fun s => ?_, s1⟩, ⟨fun s => ?_, s1⟩, s2⟩
  · unfold mzedTrsmLowerLeft? trsmLowerF
    rw [if_pos hb2]
    rfl
  · unfold mzedTrsmUpperLeft? trsmUpperF
    rw [if_pos hb2]
    rfl
  · unfold mzedTrsmLowerLeftT trsmLowerF
    have hb1 : ((mzedTrsmOpsT env).nrows (A, []) : Int) ≤ cutoff ∨ ((mzedTrsmOpsT env).ncols (B, s) : Int) ≤ cutoff := hb2
    rw [if_pos hb1]
    exact t1 s
  · unfold mzedTrsmUpperLeftT trsmUpperF
    have hb1 : ((mzedTrsmOpsT env).nrows (A, []) : Int) ≤ cutoff ∨ ((mzedTrsmOpsT env).ncols (B, s) : Int) ≤ cutoff := hb2
    rw [if_pos hb1]
    exact t2 s

end

/-- the hypotheses of `C83_trsm` are met: 2000 rows and 700 columns over GF(2^8), the default cutoff (two levels of recursion, multiplications by Karatsuba and by Strassen) -/
example : ∃ (ff : Gf2e) (_ : IsField ff) (A B : Mzed) (MA MB : Nat → Nat → Elem ff) (env : MulEnv), Rep A MA ∧ Rep B MB ∧ A.nrows = B.nrows ∧ A.ncols = B.nrows ∧ A.fid = B.fid ∧
    (∀ i, i < B.nrows → MA i i ≠ 0) ∧ B.nrows = 2000 ∧ B.ncols = 700 ∧ env.Ok ff.degree ∧ 64 ≤ mzedTrsmCutoff := by
  obtain ⟨ff, hF, h8⟩ := exists_aes
  let X : Mat ff := ⟨2000, 2000, 0, fun i j => if j ≤ i then 1 else 0⟩
  let Y : Mat ff := ⟨2000, 700, 0, fun i j => if i = j + 3 then 1 else 0⟩
  refine ⟨ff, hF, X.pack, Y.pack, _, _, ⟨grayCode, 2048, Nat.sqrt, 1048576⟩, pack_rep X, pack_rep Y, rfl, rfl, rfl, fun i _ => ?_, rfl, rfl, ⟨grayCode_ok _, by norm_num, rfl, by norm_num⟩, by decide⟩
  show (if i ≤ i then (1 : Elem ff) else 0) ≠ 0
  rw [if_pos le_rfl]
  exact one_ne_zero

end M4rie.Props
