import Verif.Proofs.CheckedPle
import Verif.Props.PleRec
import Verif.Props.Entry

/-!
# Property C64, continued: recursive PLE and PLUQ decomposition and elimination with every access checked

`env` is as in `Props/PleRec.lean`; the comparison with the cutoff is an arbitrary function, so the theorems hold for every cutoff.
Only `mzed_echelonize` compares an `int` product.
-/

namespace M4rie.Props
open M4rie M4rie.Spec

variable {ff : Gf2e} [IsField ff]

private theorem sm'' {A : Mzed} {M : Nat → Nat → Elem ff} (h : Rep A M) (hs : A.bitCols < 2 ^ 31) : Chk.Sm ff A.ncols := by
  unfold Mzed.bitCols at hs; rw [h.wEq] at hs; exact hs

section
variable {env : PleEnv} (hc : CompressOk env.compress) (hcb : env.cb.Ok ff.degree) (dbg : Bool)
include hc hcb

/-- **C64** `_mzd_slice_ple`, with permutations of at least the documented lengths: every window of the matrix and of the permutations that
the recursion makes lies inside its parent, every transposition that M4RI is asked to apply is in range, and the result is a PLE
decomposition.  No cutoff leads to a fault. -/
theorem C64_slice_ple {A : Slice} {M : Nat → Nat → Elem ff} (h : SRep A M) (hs : degreeToW ff.degree * A.ncols < 2 ^ 31) (P Q : Mzp)
    (hP : A.nrows ≤ P.length) (hQ : A.ncols ≤ Q.length) :
    ∃ R P' Q' r, Chk.slicePle dbg env A P Q = some (R, P', Q', r) ∧ P'.length = P.length ∧ Q'.length = Q.length ∧
      SDecomposedPLE A M P.val Q.val (R, P'.val, Q'.val, r) := by
  obtain ⟨⟨R, P', Q', r⟩, e, hd⟩ := C33_slice_ple hc hcb h P.val Q.val
  have := Chk.slicePle_eq dbg hc hcb (⟨A.nrows, A.ncols, A.fid, M⟩ : Mat ff) P Q hs hP hQ
  rw [← h.eq_spack', e] at this
  exact ⟨R, ⟨P.length, P'⟩, ⟨Q.length, Q'⟩, r, this, rfl, rfl, hd⟩

/-- **C64** `_mzd_slice_pluq`: as `_mzd_slice_ple`; here `Q` must have exactly as many entries as the matrix has columns. -/
theorem C64_slice_pluq {A : Slice} {M : Nat → Nat → Elem ff} (h : SRep A M) (hs : degreeToW ff.degree * A.ncols < 2 ^ 31) (P Q : Mzp)
    (hP : A.nrows ≤ P.length) (hQ : A.ncols = Q.length) :
    ∃ (R : Slice) (G : Nat → Nat → Elem ff) (P' Q' : Mzp), Chk.slicePluq dbg env A P Q = some (R, P', Q', rank A.nrows A.ncols M) ∧
      P'.length = P.length ∧ Q'.length = Q.length ∧ SSameDim R A ∧ SRep R G ∧
      IsPLUQ A.nrows A.ncols (rank A.nrows A.ncols M) M G P'.val Q'.val ∧ (∀ i j, ¬ (i < A.nrows ∧ j < A.ncols) → G i j = M i j) := by
  obtain ⟨R, G, P', Q', e, h2, h3, h4, h5, -⟩ := C33_slice_pluq hc hcb h P.val Q.val
  have := Chk.slicePluq_eq dbg hc hcb (⟨A.nrows, A.ncols, A.fid, M⟩ : Mat ff) P Q hs hP hQ
  rw [← h.eq_spack', e] at this
  exact ⟨R, G, ⟨P.length, P'⟩, ⟨Q.length, Q'⟩, this, rfl, rfl, h2, h3, h4, h5⟩

/-- **C64** `_mzed_ple` -/
theorem C64_ple {A : Mzed} {M : Nat → Nat → Elem ff} (h : Rep A M) (hs : A.bitCols < 2 ^ 31) (P Q : Mzp)
    (hP : A.nrows ≤ P.length) (hQ : A.ncols ≤ Q.length) :
    ∃ R P' Q' r, Chk.mzedPle dbg env A P Q = some (R, P', Q', r) ∧ P'.length = P.length ∧ Q'.length = Q.length ∧
      DecomposedPLE A M P.val Q.val (R, P'.val, Q'.val, r) := by
  obtain ⟨⟨R, P', Q', r⟩, e, hd⟩ := C33_ple hc hcb h P.val Q.val
  have := Chk.mzedPle_eq dbg hc hcb (⟨A.nrows, A.ncols, A.fid, M⟩ : Mat ff) P Q (sm'' h hs) hP hQ
  rw [← h.eq_pack', e] at this
  exact ⟨R, ⟨P.length, P'⟩, ⟨Q.length, Q'⟩, r, this, rfl, rfl, hd⟩

/-- **C64** `mzd_slice_echelonize_ple`: the permutations it allocates, the windows, the copies around the word boundary, the entries it
writes and the bits it clears are all in range, and the matrix gets its (reduced) echelon form. -/
theorem C64_slice_echelonize_ple {A : Slice} {M : Nat → Nat → Elem ff} (h : SRep A M) (hs : degreeToW ff.degree * A.ncols < 2 ^ 31) (full : Bool) :
    Chk.sliceEchelonizePle dbg env A full = mzdSliceEchelonizePle? env A full ∧
    ∃ (R : Slice) (M' : Nat → Nat → Elem ff) (piv : Nat → Nat), Chk.sliceEchelonizePle dbg env A full = some (R, rank A.nrows A.ncols M) ∧ SSameDim R A ∧ SRep R M' ∧
      IsEchelon A.nrows A.ncols (rank A.nrows A.ncols M) M' piv ∧ (full = true → IsRref A.nrows A.ncols (rank A.nrows A.ncols M) M' piv) ∧
      rowSpan A.nrows A.ncols M' = rowSpan A.nrows A.ncols M := by
  have e := Chk.sliceEchelonizePle_eq dbg hc hcb (⟨A.nrows, A.ncols, A.fid, M⟩ : Mat ff) hs full
  rw [← h.eq_spack'] at e
  obtain ⟨R, M', piv, h1, h2, h3, h4, h5, h6, -⟩ := C36_slice_echelonize_ple hc hcb h full
  exact ⟨e, R, M', piv, e.trans h1, h2, h3, h4, h5, h6⟩

/-- **C64** `mzed_echelonize_ple` -/
theorem C64_echelonize_ple {A : Mzed} {M : Nat → Nat → Elem ff} (h : Rep A M) (hs : A.bitCols < 2 ^ 31) (full : Bool) :
    ∃ (R : Mzed) (M' : Nat → Nat → Elem ff) (piv : Nat → Nat), Chk.echelonizePle dbg env A full = some (R, rank A.nrows A.ncols M) ∧ SameDim R A ∧ Rep R M' ∧
      IsEchelon A.nrows A.ncols (rank A.nrows A.ncols M) M' piv ∧ (full = true → IsRref A.nrows A.ncols (rank A.nrows A.ncols M) M' piv) ∧
      rowSpan A.nrows A.ncols M' = rowSpan A.nrows A.ncols M := by
  have e := Chk.echelonizePle_eq dbg hc hcb (⟨A.nrows, A.ncols, A.fid, M⟩ : Mat ff) (sm'' h hs) full
  rw [← h.eq_pack'] at e
  obtain ⟨R, M', piv, h1, h2, h3, h4, h5, h6, -⟩ := C36_echelonize_ple hc hcb h full
  exact ⟨R, M', piv, e.trans h1, h2, h3, h4, h5, h6⟩

/-- **C64** `mzed_echelonize`, for matrices of less than `2^31` bits: whichever algorithm is selected. -/
theorem C64_echelonize {A : Mzed} {M : Nat → Nat → Elem ff} (h : Rep A M) (hs : A.bitCols < 2 ^ 31)
    (hi : A.nrows * A.ncols * degreeToW ff.degree < 2 ^ 31) (l2 optK : Nat) (smallNj full : Bool) :
    ∃ (R : Mzed) (M' : Nat → Nat → Elem ff) (piv : Nat → Nat), Chk.echelonize dbg env l2 optK smallNj A full = some (R, rank A.nrows A.ncols M) ∧
      SameDim R A ∧ Rep R M' ∧
      IsEchelon A.nrows A.ncols (rank A.nrows A.ncols M) M' piv ∧ (full = true → IsRref A.nrows A.ncols (rank A.nrows A.ncols M) M' piv) ∧
      rowSpan A.nrows A.ncols M' = rowSpan A.nrows A.ncols M := by
  have e := Chk.echelonize_eq dbg hc hcb (⟨A.nrows, A.ncols, A.fid, M⟩ : Mat ff) (sm'' h hs) l2 optK smallNj full hi
  rw [← h.eq_pack'] at e
  obtain ⟨R, M', piv, h1, h2, h3, h4, h5, h6, -⟩ := C53_echelonize hc hcb optK smallNj (fun nr nc => decide (nr * nc * degreeToW ff.degree ≤ 2 * (l2 * 4))) h full
  exact ⟨R, M', piv, e.trans h1, h2, h3, h4, h5, h6⟩

end

/-- **C64** the entry points `mzd_slice_ple` and `mzd_slice_pluq` with permutations of the documented lengths: the assertions hold and nothing
faults. -/
theorem C64_ple_entry {compress} (hc : CompressOk compress) {cb : Codebook} (hcb : cb.Ok ff.degree) (dbg : Bool) (l2 : Nat) {A : Slice}
    {M : Nat → Nat → Elem ff} (h : SRep A M) (hs : degreeToW ff.degree * A.ncols < 2 ^ 31) (P Q : Mzp) (hP : P.length = A.nrows) (hQ : Q.length = A.ncols) :
    (∃ R P' Q' r, Chk.slicePleTop dbg cb compress l2 A P Q = some (R, P', Q', r) ∧ SDecomposedPLE A M P.val Q.val (R, P'.val, Q'.val, r)) ∧
    (∃ R P' Q' r, Chk.slicePluqTop dbg cb compress l2 A P Q = some (R, P', Q', r) ∧
      ∃ G : Nat → Nat → Elem ff, SRep R G ∧ IsPLUQ A.nrows A.ncols r M G P'.val Q'.val) := by
  obtain ⟨R, P', Q', r, e, -, -, hd⟩ := C64_slice_ple (env := pleEnvOf cb compress A.ff l2 0) hc hcb dbg h hs P Q hP.ge hQ.ge
  obtain ⟨R2, G, P2, Q2, e2, -, -, -, h3, h4, -⟩ := C64_slice_pluq (env := pleEnvOf cb compress A.ff l2 0) hc hcb dbg h hs P Q hP.ge hQ.symm
  refine ⟨⟨R, P', Q', r, ?_, hd⟩, ⟨R2, P2, Q2, _, ?_, G, h3, h4⟩⟩
  · unfold Chk.slicePleTop
    rw [Chk.assert_eq hP, Option.bind_some, Chk.assert_eq hQ, Option.bind_some, e]
  · unfold Chk.slicePluqTop
    rw [Chk.assert_eq hP, Option.bind_some, Chk.assert_eq hQ, Option.bind_some, e2]

/-! ### the preconditions cannot be dropped -/

/-- **C64** exception: `mzed_echelonize` multiplies `nrows*ncols*w` in `int`.  For every matrix of `2^31` bits or more with at least `degree`
rows (e.g. 16384 x 16384 over GF(2^8)) the product overflows, before any work is done. -/
theorem C64_violation_echelonize_overflow (dbg : Bool) (env : PleEnv) {A : Mzed} {M : Nat → Nat → Elem ff} (h : Rep A M) (hd : ff.degree ≤ A.nrows)
    (hi : 2 ^ 31 ≤ A.nrows * A.ncols * degreeToW ff.degree) (l2 optK : Nat) (smallNj full : Bool) :
    Chk.echelonize dbg env l2 optK smallNj A full = none := by
  unfold Chk.echelonize Chk.medium
  rw [(Chk.rep_dm h).ff_eq, h.wEq, if_neg (by omega)]
  have hn : ∀ n, ¬ n < 2 ^ 31 → Chk.int? n = none := fun n hn => if_neg hn
  by_cases h1 : A.nrows * A.ncols < 2 ^ 31
  · rw [Chk.int_eq h1, Option.bind_some, hn _ (by omega)]; rfl
  · rw [hn _ h1]; rfl

/-- **C64** exception: a permutation that is too short is written past its end by `_mzd_slice_ple` (which does not check the lengths; the
entry point does only if assertions are compiled in). -/
theorem C64_violation_short_permutation (dbg : Bool) (env : PleEnv) {A : Slice} {M : Nat → Nat → Elem ff} (h : SRep A M) (P Q : Mzp)
    (hlen : P.length < A.nrows ∨ Q.length < A.ncols) : Chk.slicePle dbg env A P Q = none := by
  have hn : ∀ (c : Prop) [Decidable c], ¬ c → Chk.need c = none := fun c _ hc => if_neg hc
  unfold Chk.slicePle
  rw [Chk.slicePleF.eq_def]
  dsimp only
  by_cases hb : A.ncols ≤ 64 ∨ env.small A.nrows A.ncols = true
  · rw [if_pos hb]
    unfold Chk.slicePleBase
    cases hcl : Chk.clingNew A with
    | none => rfl
    | some Abar =>
      have hdim : Abar.nrows = A.nrows ∧ Abar.ncols = A.ncols := by
        by_cases hs : degreeToW ff.degree * A.ncols < 2 ^ 31
        · obtain ⟨e1, e2⟩ := Chk.clingNew_eqv hs (Chk.srep_sd h)
          have := e2 Abar (e1.symm.trans hcl)
          exact ⟨this.nrows_eq, this.ncols_eq⟩
        · exfalso
          unfold Chk.clingNew at hcl
          rw [(Chk.srep_sd h).ff_eq, show Chk.int? _ = none from if_neg hs] at hcl
          cases hcl
      rw [Option.bind_some, hdim.1, hdim.2, hn _ (by omega)]
      rfl
  rw [if_neg hb]
  refine Chk.bindn fun _ => Chk.bindn fun _ => ?_
  rcases hlen with hl | hl
  · unfold Chk.pwindow
    rw [hn (0 ≤ A.nrows ∧ A.nrows ≤ P.length) (by omega)]
    rfl
  · refine Chk.bindn fun _ => Chk.bindn fun _ => Chk.bindn fun p1 => ?_
    refine Chk.bindn fun _ => Chk.bindn fun _ => Chk.bindn fun _ => Chk.bindn fun _ => Chk.bindn fun _ => Chk.bindn fun _ => ?_
    unfold Chk.pwindow Chk.pmerge
    dsimp only
    rw [hn (pleSplit A.ncols ≤ A.ncols ∧ A.ncols ≤ Q.length) (by omega)]
    rfl

/-- The hypotheses are met, e.g. by a 150 x 200 matrix over GF(2^8) with permutations of 150 and 200 entries, in an environment that always recurses;
and those of the exception by a 16384 x 16384 matrix. -/
example : ∃ ff, ∃ _ : IsField ff, CompressOk pleEnv0.compress ∧ pleEnv0.cb.Ok ff.degree ∧ (∃ (A : Slice) (B : Mzed) (M : Nat → Nat → Elem ff), SRep A M ∧ Rep B M ∧
      A.nrows = 150 ∧ A.ncols = 200 ∧ degreeToW ff.degree * A.ncols < 2 ^ 31 ∧ B.bitCols < 2 ^ 31 ∧ B.nrows * B.ncols * degreeToW ff.degree < 2 ^ 31 ∧
      A.nrows ≤ (mzpInit 150).length ∧ A.ncols = (mzpInit 200).length ∧ M 0 0 = 0 ∧ M 1 0 = 1 ∧ M 0 150 = 1) ∧
    ∃ (A : Mzed) (M : Nat → Nat → Elem ff), Rep A M ∧ A.nrows = 16384 ∧ A.ncols = 16384 ∧ ff.degree ≤ A.nrows ∧ 2 ^ 31 ≤ A.nrows * A.ncols * degreeToW ff.degree := by
  obtain ⟨ff, h, h8⟩ := exists_aes
  refine ⟨ff, h, pleEnv0_ok, grayCode_ok _, ⟨_, _, _, spack_rep ⟨150, 200, 0, fun i j => if (i = 1 ∧ j = 0) ∨ (100 < j ∧ j = 150 + i) then 1 else 0⟩,
    pack_rep ⟨150, 200, 0, fun i j => if (i = 1 ∧ j = 0) ∨ (100 < j ∧ j = 150 + i) then 1 else 0⟩, rfl, rfl, ?_, ?_, ?_, ?_, rfl, by simp, by simp, by simp⟩,
    _, _, pack_rep ⟨16384, 16384, 0, fun _ _ => 0⟩, rfl, rfl, ?_, ?_⟩
  · show degreeToW ff.degree * 200 < _; rw [h8]; decide
  · show degreeToW ff.degree * 200 < _; rw [h8]; decide
  · show 150 * 200 * degreeToW ff.degree < _; rw [h8]; decide
  · show 150 ≤ 150; decide
  · show ff.degree ≤ 16384; omega
  · show 2 ^ 31 ≤ 16384 * 16384 * degreeToW ff.degree; rw [h8]; decide

end M4rie.Props
