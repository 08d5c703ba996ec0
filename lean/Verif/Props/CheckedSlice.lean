import Verif.Proofs.CheckedTrsm
import Verif.Props.Kara
import Verif.Props.TrsmRec
import Verif.Props.Slice

/-!
# Property C64, continued: Karatsuba multiplication, the multiplication dispatch, triangular solving

Each theorem says two things: the checked program does exactly what the total model does (so it faults only where the total
model says so), and under the conditions of the arithmetic properties it succeeds with the right result.
-/

namespace M4rie.Props
open M4rie M4rie.Spec

variable {ff : Gf2e} [IsField ff]

private theorem sm' {A : Mzed} {M : Nat → Nat → Elem ff} (h : Rep A M) (hs : A.bitCols < 2 ^ 31) : Chk.Sm ff A.ncols := by
  unfold Mzed.bitCols at hs; rw [h.wEq] at hs; exact hs

/-- **C64** multiplication of slices: the naive and the Karatsuba routines.  All slices that are indexed exist (also after the
reduction modulo the minimal polynomial, whose targets are data), all products and sums that M4RI is asked for have operands of
fitting dimensions. -/
theorem C64_slice_mul {A B C : Slice} {MA MB MC : Nat → Nat → Elem ff} (hA : SRep A MA) (hB : SRep B MB) (hC : SRep C MC) (h : SFits C A B) :
    (∃ R, Chk.sliceAddmulNaive C A B = some R ∧ SHoldsSumProduct R C A.ncols MC MA MB) ∧
    (∃ R, Chk.sliceAddmulKaratsuba C A B = some R ∧ SHoldsSumProduct R C A.ncols MC MA MB) ∧
    (∃ R, Chk.sliceMulKaratsuba C A B = some R ∧ SHoldsProduct R C A.ncols MC MA MB) := by
  have d1 := Chk.srep_sd hC
  have d2 := Chk.srep_sd hA
  have d3 := Chk.srep_sd hB
  rw [h.rows, h.cols, h.fieldC] at d1
  rw [← h.inner, ← h.field] at d3
  obtain ⟨⟨R1, e1, f1⟩, -⟩ := C28_addmul_unchecked hA hB hC h.rows h.cols
  obtain ⟨R2, e2, f2⟩ := C28_addmul hA hB hC h
  obtain ⟨R3, e3, f3⟩ := C28_mul hA hB hC h
  exact ⟨⟨R1, (Chk.sliceAddmulNaive_eqv d1 d2 d3).1.trans e1, f1⟩, ⟨R2, (Chk.sliceAddmulKaratsuba_eqv d1 d2 d3).1.trans e2, f2⟩,
    ⟨R3, (Chk.sliceMulKaratsuba_eqv d1 d2 d3).1.trans e3, f3⟩⟩

/-- **C64** multiplication of a slice by a scalar (any element of the field), with or without accumulation -/
theorem C64_slice_mul_scalar (dbg : Bool) {B C : Slice} {MB MC : Nat → Nat → Elem ff} (hB : SRep B MB) (hC : SRep C MC) (hd : SSameDim C B) (a : Elem ff) :
    Chk.sliceAddmulScalar dbg C a.1 B = mzdSliceAddmulScalar? C a.1 B ∧ Chk.sliceMulScalar dbg C a.1 B = mzdSliceMulScalar? C a.1 B ∧
    (∃ R, Chk.sliceAddmulScalar dbg C a.1 B = some R) ∧ (∃ R, Chk.sliceMulScalar dbg C a.1 B = some R) := by
  have d1 := Chk.srep_sd hC
  have d2 := Chk.srep_sd hB
  rw [hd.nrows, hd.ncols, hd.fid] at d1
  have e1 := (Chk.sliceAddmulScalar_eqv dbg d1 d2 a).1
  have e2 := (Chk.sliceMulScalar_eqv dbg d1 d2 a).1
  refine ⟨e1, e2, ?_, ?_⟩
  · have := sliceAddmulScalar_spack (⟨C.nrows, C.ncols, C.fid, MC⟩ : Mat ff) ⟨B.nrows, B.ncols, B.fid, MB⟩ a hd.fid hd.nrows hd.ncols
    rw [← hC.eq_spack', ← hB.eq_spack'] at this
    exact ⟨_, e1.trans this⟩
  · have hz := sliceSetUi_zero (⟨C.nrows, C.ncols, C.fid, MC⟩ : Mat ff)
    rw [← hC.eq_spack'] at hz
    have := sliceAddmulScalar_spack ((⟨C.nrows, C.ncols, C.fid, MC⟩ : Mat ff).scalar 0) ⟨B.nrows, B.ncols, B.fid, MB⟩ a hd.fid hd.nrows hd.ncols
    rw [← hz, ← hB.eq_spack'] at this
    exact ⟨_, e2.trans this⟩

section
variable {A B C : Mzed} {MA MB MC : Nat → Nat → Elem ff} (hA : Rep A MA) (hB : Rep B MB) (hC : Rep C MC) (hfit : Fits C A B)
    (hs : A.bitCols < 2 ^ 31) (hs' : B.bitCols < 2 ^ 31)
include hA hB hC hfit hs'

/-- **C64** packed multiplication by slicing, multiplying the slices and clinging -/
theorem C64_addmul_karatsuba (dbg : Bool) : ∃ R, Chk.addmulKara dbg C A B = some R ∧ HoldsSumProduct R C A.ncols MC MA MB := by
  have d1 := Chk.rep_dm hC
  have d2 := Chk.rep_dm hA
  have d3 := Chk.rep_dm hB
  rw [hfit.rows, hfit.cols, hfit.fieldC] at d1
  rw [← hfit.inner, ← hfit.field] at d3
  obtain ⟨R, e, h⟩ := (C25_karatsuba hA hB hC hfit).2
  refine ⟨R, (Chk.addmulKara_eqv dbg (sm' hB hs') C A B d1 d2 d3).1.trans (Eq.trans ?_ e), h⟩
  unfold mzedAddmulKaratsuba?
  rw [if_neg (by have := hfit.inner; have := hfit.field; tauto), if_neg (by have := hfit.fieldC; have := hfit.rows; have := hfit.cols; tauto)]

include hs
/-- **C64** `mzed_mul` and `mzed_addmul`: whatever algorithm the dispatch selects -/
theorem C64_mul (dbg : Bool) {env : MulEnv} (henv : env.Ok ff.degree) :
    Chk.mulM dbg env C A B = mzedMul? env C A B ∧ Chk.addmulM dbg env C A B = mzedAddmul? env C A B ∧
    (0 < B.ncols → (∃ R, Chk.mulM dbg env C A B = some R ∧ HoldsProduct R C A.ncols MC MA MB) ∧
      ∃ R, Chk.addmulM dbg env C A B = some R ∧ HoldsSumProduct R C A.ncols MC MA MB) := by
  have d1 := Chk.rep_dm hC
  have d2 := Chk.rep_dm hA
  have d3 := Chk.rep_dm hB
  rw [hfit.rows, hfit.cols, hfit.fieldC] at d1
  rw [← hfit.inner, ← hfit.field] at d3
  have e1 := (Chk.mulM_eqv henv.cb henv.bs dbg (sm' hA hs) (sm' hB hs') C A B d1 d2 d3).1
  have e2 := (Chk.addmulM_eqv henv.cb henv.bs dbg (sm' hA hs) (sm' hB hs') C A B d1 d2 d3).1
  refine ⟨e1, e2, fun hn => ?_⟩
  obtain ⟨R, h, h'⟩ := C25_mul henv hA hB hC hfit hn
  obtain ⟨S, g, g'⟩ := C25_addmul henv hA hB hC hfit hn
  exact ⟨⟨R, e1.trans h, h'⟩, ⟨S, e2.trans g, g'⟩⟩

end

section
variable {A B : Mzed} {MA MB : Nat → Nat → Elem ff} (hA : Rep A MA) (hB : Rep B MB) (hr : A.nrows = B.nrows) (hc : A.ncols = B.nrows)
  (hf : A.fid = B.fid) (hn : 0 < B.ncols) (hs : A.bitCols < 2 ^ 31) (hs' : B.bitCols < 2 ^ 31) {env : MulEnv} (henv : env.Ok ff.degree)
include hA hB hr hc hf hn hs hs' henv

/-- **C64** recursive triangular solving, packed: no fault for any cutoff from 64 on and an invertible diagonal, and the system is
solved; for every cutoff and every triangle, the checked program does what the total model does (C30 says when it fails). -/
theorem C64_trsm (dbg : Bool) (cutoff : Int) :
    Chk.trsmLower dbg env A B cutoff = mzedTrsmLowerLeft? env A B cutoff ∧ Chk.trsmUpper dbg env A B cutoff = mzedTrsmUpperLeft? env A B cutoff ∧
    (64 ≤ cutoff → (∀ i, i < B.nrows → MA i i ≠ 0) →
      (∃ R, Chk.trsmLower dbg env A B cutoff = some R ∧ SolvedLower R B MA MB) ∧ ∃ R, Chk.trsmUpper dbg env A B cutoff = some R ∧ SolvedUpper R B MA MB) := by
  have d1 := Chk.rep_dm hA
  have s1 := sm' hA hs
  rw [hr, hc, hf] at d1
  rw [hc] at s1
  have e1 := (Chk.trsmLowerF_eqv (Chk.mzedOps dbg henv.cb henv.bs) dbg cutoff (B.nrows + 1) _ _ A B d1 (Chk.rep_dm hB) s1 (sm' hB hs') hn).1
  have e2 := (Chk.trsmUpperF_eqv (Chk.mzedOps dbg henv.cb henv.bs) dbg cutoff (B.nrows + 1) _ _ A B d1 (Chk.rep_dm hB) s1 (sm' hB hs') hn).1
  refine ⟨e1, e2, fun hcut hd => ?_⟩
  obtain ⟨R, h, h'⟩ := C30_lower hA hB hr hc hf hd hn henv hcut
  obtain ⟨S, g, g'⟩ := C30_upper hA hB hr hc hf hd hn henv hcut
  exact ⟨⟨R, e1.trans h, h'⟩, ⟨S, e2.trans g, g'⟩⟩

end

section
variable {A B : Slice} {MA MB : Nat → Nat → Elem ff} (hA : SRep A MA) (hB : SRep B MB) (hr : A.nrows = B.nrows) (hc : A.ncols = B.nrows)
  (hf : A.fid = B.fid) (hn : 0 < B.ncols) (hs : degreeToW ff.degree * A.ncols < 2 ^ 31) (hs' : degreeToW ff.degree * B.ncols < 2 ^ 31)
  {cb : Codebook} (hcb : cb.Ok ff.degree)
include hA hB hr hc hf hn hs hs' hcb

/-- **C64** recursive triangular solving, sliced -/
theorem C64_slice_trsm (dbg : Bool) (cutoff : Int) :
    Chk.strsmLower dbg cb A B cutoff = mzdSliceTrsmLowerLeft? cb A B cutoff ∧ Chk.strsmUpper dbg cb A B cutoff = mzdSliceTrsmUpperLeft? cb A B cutoff ∧
    (64 ≤ cutoff → (∀ i, i < B.nrows → MA i i ≠ 0) →
      (∃ R, Chk.strsmLower dbg cb A B cutoff = some R ∧ SSolvedLower R B MA MB) ∧ ∃ R, Chk.strsmUpper dbg cb A B cutoff = some R ∧ SSolvedUpper R B MA MB) := by
  have d1 := Chk.srep_sd hA
  rw [hr, hc, hf] at d1
  rw [hc] at hs
  have e1 := (Chk.trsmLowerF_eqv (Chk.sliceOps dbg hcb) dbg cutoff (B.nrows + 1) _ _ A B d1 (Chk.srep_sd hB) hs hs' hn).1
  have e2 := (Chk.trsmUpperF_eqv (Chk.sliceOps dbg hcb) dbg cutoff (B.nrows + 1) _ _ A B d1 (Chk.srep_sd hB) hs hs' hn).1
  refine ⟨e1, e2, fun hcut hd => ?_⟩
  obtain ⟨R, h, h'⟩ := C30_slice_lower hA hB hr hc hd hn hcb hcut hf
  obtain ⟨S, g, g'⟩ := C30_slice_upper hA hB hr hc hd hn hcb hcut hf
  exact ⟨⟨R, e1.trans h, h'⟩, ⟨S, e2.trans g, g'⟩⟩

/-- **C64** the naive and the Newton-John solvers for slices -/
theorem C64_slice_trsm_base (dbg : Bool) :
    Chk.strsmLowerNaive dbg A B = mzdSliceTrsmLowerLeftNaive? A B ∧ Chk.strsmUpperNaive dbg A B = mzdSliceTrsmUpperLeftNaive? A B ∧
    Chk.strsmLowerNj dbg cb A B = mzdSliceTrsmLowerLeftNewtonJohn? cb A B ∧ Chk.strsmUpperNj dbg cb A B = mzdSliceTrsmUpperLeftNewtonJohn? cb A B ∧
    ((∀ i, i < B.nrows → MA i i ≠ 0) → (∃ R, Chk.strsmLowerNaive dbg A B = some R ∧ SSolvedLower R B MA MB) ∧
      (∃ R, Chk.strsmUpperNaive dbg A B = some R ∧ SSolvedUpper R B MA MB) ∧ (∃ R, Chk.strsmLowerNj dbg cb A B = some R ∧ SSolvedLower R B MA MB) ∧
      (∃ R, Chk.strsmUpperNj dbg cb A B = some R ∧ SSolvedUpper R B MA MB)) := by
  have d1 := Chk.srep_sd hA
  rw [hr, hc, hf] at d1
  rw [hc] at hs
  have d2 := Chk.srep_sd hB
  have e1 := (Chk.strsmLowerNaive_eqv dbg d1 d2 hs' hs hn).1
  have e2 := (Chk.strsmUpperNaive_eqv dbg d1 d2 hs' hs hn).1
  have e3 := (Chk.strsmLowerNj_eqv dbg hcb d1 d2 hs' hs hn).1
  have e4 := (Chk.strsmUpperNj_eqv dbg hcb d1 d2 hs' hs hn).1
  refine ⟨e1, e2, e3, e4, fun hd => ?_⟩
  obtain ⟨R1, f1, g1⟩ := C29_slice_lower_naive hA hB hr hc hd hn
  obtain ⟨R2, f2, g2⟩ := C29_slice_upper_naive hA hB hr hc hd hn
  obtain ⟨R3, f3, g3⟩ := C29_slice_lower_newton_john hA hB hr hc hd hn hcb
  obtain ⟨R4, f4, g4⟩ := C29_slice_upper_newton_john hA hB hr hc hd hn hcb
  exact ⟨⟨R1, e1.trans f1, g1⟩, ⟨R2, e2.trans f2, g2⟩, ⟨R3, e3.trans f3, g3⟩, ⟨R4, e4.trans f4, g4⟩⟩

end

/-- The hypotheses are met, e.g. by a 1500 x 1500 triangle and a 1500 x 700 right hand side over GF(2^8), for which a cutoff of 64 (and the
default one) leads into the recursion, and whose products are large enough for Karatsuba. -/
example : ∃ ff, ∃ _ : IsField ff, ∃ (A B C : Mzed) (S T V : Slice) (M N K : Nat → Nat → Elem ff), Rep A M ∧ Rep B N ∧ Rep C K ∧ Fits C A B ∧ SRep S M ∧ SRep T N ∧
    SRep V K ∧ SFits V S T ∧ A.nrows = B.nrows ∧ A.ncols = B.nrows ∧ A.fid = B.fid ∧ A.bitCols < 2 ^ 31 ∧ B.bitCols < 2 ^ 31 ∧
    512 < B.ncols ∧ (∀ i, i < B.nrows → M i i ≠ 0) ∧ M 3 7 = 1 ∧ N 2 2 = 1 ∧ 512 < A.nrows ∧ grayCode.Ok ff.degree ∧
    (⟨grayCode, 16, Nat.sqrt, 4096⟩ : MulEnv).Ok ff.degree := by
  obtain ⟨ff, h, h8⟩ := exists_aes
  refine ⟨ff, h, _, _, _, _, _, _, _, _, _, pack_rep ⟨1500, 1500, 0, fun i j => if i ≤ j then 1 else 0⟩, pack_rep ⟨1500, 700, 0, fun i j => if i = j then 1 else 0⟩,
    pack_rep ⟨1500, 700, 0, fun _ _ => 0⟩, ⟨?_, ?_, ?_, ?_, ?_⟩, spack_rep ⟨1500, 1500, 0, fun i j => if i ≤ j then 1 else 0⟩,
    spack_rep ⟨1500, 700, 0, fun i j => if i = j then 1 else 0⟩, spack_rep ⟨1500, 700, 0, fun _ _ => 0⟩, ⟨?_, ?_, ?_, ?_, ?_⟩, ?_, ?_, ?_, ?_, ?_, ?_, ?_, ?_,
    ?_, ?_, grayCode_ok _, ⟨grayCode_ok _, Nat.le_refl _, rfl, Nat.le_refl _⟩⟩
  case refine_14 => show degreeToW ff.degree * 1500 < _; rw [h8]; decide
  case refine_15 => show degreeToW ff.degree * 700 < _; rw [h8]; decide
  case refine_16 => show 512 < 700; decide
  case refine_17 => intro i _; simp
  case refine_18 => simp
  case refine_19 => simp
  case refine_20 => show 512 < 1500; decide
  all_goals (simp only [Mat.pack, Mat.spack])

end M4rie.Props
