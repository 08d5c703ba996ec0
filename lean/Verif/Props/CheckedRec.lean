import Verif.Proofs.CheckedRec
import Verif.Props.Strassen

/-!
# Property C64: no undefined behaviour in the recursive algorithms

As C63 (Props/Checked.lean): `Chk.f` is the C function `f` in a semantics in which every step can go wrong.  For the
recursive algorithms this includes: every window lies inside its parent and starts at a word boundary, operands have the
dimensions that M4RI's routines require, all indices of slices and of tables are in range.
-/

namespace M4rie.Props
open M4rie M4rie.Spec

variable {ff : Gf2e} [IsField ff]

private theorem sm' {A : Mzed} {M : Nat → Nat → Elem ff} (h : Rep A M) (hs : A.bitCols < 2 ^ 31) : Chk.Sm ff A.ncols := by
  unfold Mzed.bitCols at hs; rw [h.wEq] at hs; exact hs

section
variable {cb : Codebook} (hcb : cb.Ok ff.degree) {bs : Nat} (hbs : 16 ≤ bs)
    {A B C : Mzed} {MA MB MC : Nat → Nat → Elem ff} (hA : Rep A MA) (hB : Rep B MB) (hC : Rep C MC) (hfit : Fits C A B)
    (hs : A.bitCols < 2 ^ 31) (hs' : B.bitCols < 2 ^ 31)
include hcb hbs hA hB hC hfit hs hs'

/-- **C64** Strassen multiplication with a usable cutoff (C23): no fault anywhere in the recursion, and the product is right.
For every cutoff at all: the checked program does exactly what the total model does (whose only failures are those of C23). -/
theorem C64_mul_strassen (dbg : Bool) (cutoff : Int) :
    Chk.mulStrassen dbg cb bs C A B cutoff = mzedMulStrassen? cb bs C A B cutoff ∧
    (0 < B.ncols → 128 / (B.w : Int) ≤ cutoff + 1 →
      ∃ R, Chk.mulStrassen dbg cb bs C A B cutoff = some R ∧ HoldsProduct R C A.ncols MC MA MB) := by
  have e : Chk.mulStrassen dbg cb bs C A B cutoff = mzedMulStrassen? cb bs C A B cutoff := by
    have d1 := Chk.rep_dm hC
    have d2 := Chk.rep_dm hA
    have d3 := Chk.rep_dm hB
    have s := sm' hB hs'
    rw [hfit.rows, hfit.cols, hfit.fieldC] at d1
    rw [← hfit.inner, ← hfit.field] at d3
    unfold Chk.mulStrassen mzedMulStrassen?
    rw [Chk.mulInit_eq C A B true d1 s]
    refine (Chk.Eqv.bind (P := Chk.Dm ff A.nrows B.ncols A.fid) ⟨rfl, fun R h => ?_⟩ fun C' h' =>
      Chk.mulStrassenF_eqv (fun m k n h1 h2 => Chk.mulNewtonJohn_eqv dbg hcb hbs m k n h1 h2) cutoff _ _ _ _ (sm' hA hs) s C' A B h' d2 d3).1
    have := (Chk.setUi_eq d1 s (0 : Elem ff)).2
    unfold mzedMulInit? at h
    split at h
    · cases h
    split at h
    · cases h
    cases h
    exact this
  refine ⟨e, fun h1 h2 => ?_⟩
  obtain ⟨R, hR⟩ := (C23_mul_strassen hcb hbs hA hB hC hfit cutoff).2 h1 h2
  exact ⟨R, e.trans hR, (C23_mul_strassen hcb hbs hA hB hC hfit cutoff).1 R hR⟩

/-- **C64** the same for multiply-and-add -/
theorem C64_addmul_strassen (dbg : Bool) (cutoff : Int) :
    Chk.addmulStrassen dbg cb bs C A B cutoff = mzedAddmulStrassen? cb bs C A B cutoff ∧
    (0 < B.ncols → 128 / (B.w : Int) ≤ cutoff + 1 →
      ∃ R, Chk.addmulStrassen dbg cb bs C A B cutoff = some R ∧ HoldsSumProduct R C A.ncols MC MA MB) := by
  have e : Chk.addmulStrassen dbg cb bs C A B cutoff = mzedAddmulStrassen? cb bs C A B cutoff := by
    have d1 := Chk.rep_dm hC
    have d2 := Chk.rep_dm hA
    have d3 := Chk.rep_dm hB
    have s := sm' hB hs'
    rw [hfit.rows, hfit.cols, hfit.fieldC] at d1
    rw [← hfit.inner, ← hfit.field] at d3
    unfold Chk.addmulStrassen mzedAddmulStrassen?
    rw [Chk.mulInit_eq C A B false d1 s]
    refine (Chk.Eqv.bind (P := Chk.Dm ff A.nrows B.ncols A.fid) ⟨rfl, fun R h => ?_⟩ fun C' h' =>
      Chk.addmulStrassenF_eqv (fun m k n h1 h2 => Chk.mulNewtonJohn_eqv dbg hcb hbs m k n h1 h2) cutoff _ _ _ _ (sm' hA hs) s C' A B h' d2 d3).1
    unfold mzedMulInit? at h
    split at h
    · cases h
    split at h
    · cases h
    cases h
    exact d1
  refine ⟨e, fun h1 h2 => ?_⟩
  obtain ⟨R, hR⟩ := (C24_addmul_strassen hcb hbs hA hB hC hfit cutoff).2 h1 h2
  exact ⟨R, e.trans hR, (C24_addmul_strassen hcb hbs hA hB hC hfit cutoff).1 R hR⟩

end

/-- The hypotheses are met, e.g. by 70 x 90 and 90 x 75 matrices over GF(2^8), where a cutoff of 32 leads into the recursion. -/
example : ∃ ff, ∃ _ : IsField ff, ∃ (A B C : Mzed) (M N K : Nat → Nat → Elem ff), Rep A M ∧ Rep B N ∧ Rep C K ∧ Fits C A B ∧ A.bitCols < 2 ^ 31 ∧
    B.bitCols < 2 ^ 31 ∧ 0 < B.ncols ∧ 128 / (B.w : Int) ≤ 32 + 1 ∧ strassenBase 32 A.nrows A.ncols B.ncols = false ∧ M 3 7 = 1 ∧ grayCode.Ok ff.degree := by
  obtain ⟨ff, h, h8⟩ := exists_aes
  refine ⟨ff, h, _, _, _, _, _, _, pack_rep ⟨70, 90, 0, fun i j => if j = 2 * i + 1 then 1 else 0⟩, pack_rep ⟨90, 75, 0, fun i j => if i = j then 1 else 0⟩,
    pack_rep ⟨70, 75, 0, fun _ _ => 0⟩, ⟨rfl, rfl, rfl, rfl, rfl⟩, ?_, ?_, ?_, ?_, ?_, by simp, grayCode_ok _⟩
  · show degreeToW ff.degree * 90 < _; rw [h8]; decide
  · show degreeToW ff.degree * 75 < _; rw [h8]; decide
  · show 0 < 75; decide
  · show 128 / ((degreeToW ff.degree : Nat) : Int) ≤ _; rw [h8]; decide
  · show strassenBase 32 70 90 75 = false; decide +kernel

end M4rie.Props
