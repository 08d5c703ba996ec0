import Verif.Proofs.CheckedNj
import Verif.Proofs.CheckedCling
import Verif.Props.Slice
import Verif.Props.NewtonJohn

/-!
# Property C63: no undefined behaviour at word level

`Chk.f` (Model/Checked.lean) is the C function `f` in a semantics in which every step can go wrong: a word outside the
rows or columns of the matrix is accessed, a shift count is 64 or more, an `int` overflows, a table of the field or of the
Gray code is indexed out of its bounds, an assertion fails (`dbg`: library compiled with assertions or without).
The theorems say: for every matrix (and window) and every argument the documentation allows, nothing of this happens,
and the result is the one of the total model, about which the other properties are proved.

The size limit `A.bitCols < 2^31` says that the bits of a row can be counted by an `int`; it is the limit of M4RI itself.
-/

namespace M4rie.Props
open M4rie M4rie.Spec

section
variable {ff : Gf2e} [IsField ff] {A B C L U : Mzed} {M N K : Nat → Nat → Elem ff}

private theorem sm (h : Rep A M) (hs : A.bitCols < 2 ^ 31) : Chk.Sm ff A.ncols := by
  unfold Mzed.bitCols at hs; rw [h.wEq] at hs; exact hs

/-- **C63** multiplication and inversion in the field: no shift by 64, no table access out of bounds, for all elements
(the inverse also for 0) -/
theorem C63_field_ops (x y : Elem ff) : Chk.fmul ff x.1 y.1 = some (x * y).1 ∧ Chk.inv ff x.1 = some (x⁻¹).1 :=
  ⟨Chk.fmul_elem x y, Chk.inv_elem x⟩

/-- **C63** polynomial division is defined for all words, also for divisor zero; multiplication for degrees 1 to 32 -/
theorem C63_gf2x (a b : Word) :
    Chk.divmod a b = some (gf2xDivmod a b) ∧ ∀ d, 1 ≤ d → d ≤ 32 → ∃ r, Chk.mul a b d = some r ∧ gf2xMul? a b d = some r := by
  refine ⟨Chk.divmod_eq a b, fun d h1 h2 => ?_⟩
  have h : Chk.mul a b d = some (gf2xMulFrom a b d 0#64) := by
    unfold Chk.mul; rw [if_pos ⟨h1, h2⟩]; exact Chk.mulFrom_eq a b d _ (by omega)
  exact ⟨_, h, by rw [← Chk.mul_eq]; exact h⟩

/-- **C63** reading, adding to and writing any entry of any matrix -/
theorem C63_elements (h : Rep A M) (hs : A.bitCols < 2 ^ 31) {i j : Nat} (hi : i < A.nrows) (hj : j < A.ncols) (x : Word) :
    Chk.readElem A i j = some (M i j).1 ∧ Chk.addElem A i j x = some (mzedAddElem A i j x) ∧
    Chk.writeElem A i j x = some (mzedWriteElem A i j x) :=
  ⟨Chk.readElem_eq h hi hj hs, Chk.addElem_eq h hi hj hs x, Chk.writeElem_eq h hi hj hs x⟩

/-- **C63** the row operations: any rows, any start column, any element (also 0), any alignment of the start and of the end
of the row -/
theorem C63_row_ops (dbg : Bool) (h : Rep A M) (hB : Rep B N) (hs : A.bitCols < 2 ^ 31) (hn : B.ncols = A.ncols) (hf : B.fid = A.fid)
    {ar br c : Nat} (har : ar < A.nrows) (hbr : br < B.nrows) (hc : c < A.ncols) (x : Elem ff) :
    Chk.addRow dbg A ar B br c = some (mzedAddRow A ar B br c) ∧
    Chk.rescaleRow dbg A ar c x.1 = some (mzedRescaleRow A ar c x.1) ∧
    Chk.addMultipleOfRow dbg A ar B br x.1 c = some (mzedAddMultipleOfRow A ar B br x.1 c) :=
  ⟨Chk.addRow_eq dbg h hB har hbr hc hn.symm hf.symm hs,
    ((Chk.rep_dm h).rescale dbg (sm h hs) har hc x).1,
    ((Chk.rep_dm h).addMul dbg (by have := Chk.rep_dm hB; rw [hn, hf] at this; exact this) (sm h hs) har hbr hc x).1⟩

/-- **C63** swapping rows and columns -/
theorem C63_swaps (h : Rep A M) (hs : A.bitCols < 2 ^ 31) :
    (∀ a b, a < A.nrows → b < A.nrows → Chk.rowSwap A a b = some (mzedRowSwap A a b)) ∧
    (∀ a b start stop, a < A.ncols → b < A.ncols → start ≤ stop → stop ≤ A.nrows →
      Chk.colSwapInRows A a b start stop = some (mzedColSwapInRows A a b start stop)) :=
  ⟨fun _ _ ha hb => ((Chk.rep_dm h).swap ha hb).1, fun _ _ _ _ ha hb h1 h2 => ((Chk.rep_dm h).colSwap (sm h hs) ha hb h1 h2).1⟩

/-- **C63** `mzed_set_ui` -/
theorem C63_set_ui (h : Rep A M) (hs : A.bitCols < 2 ^ 31) (x : Elem ff) : Chk.setUi A x.1 = some (mzedSetUi A x.1) :=
  (Chk.setUi_eq (Chk.rep_dm h) (sm h hs) x).1

/-- **C63** `mzed_mul_scalar`, both branches: defined (and correct, C18) exactly where the total model is; by C18 that is
everywhere except for large matrices over the fields of degree 3, 5, 6, 7. -/
theorem C63_mul_scalar (dbg : Bool) (hB : Rep B N) (hC : Rep C K) (hd : SameDim C B) (hs : B.bitCols < 2 ^ 31) (hs' : B.nrows * B.ncols < 2 ^ 31)
    (hn : 0 < B.ncols) (x : Elem ff) :
    Chk.mulScalar dbg C x.1 B = mzedMulScalar? C x.1 B ∧
    (Chk.mulScalar dbg C x.1 B = none ↔ (ff.degree = 3 ∨ ff.degree = 5 ∨ ff.degree = 6 ∨ ff.degree = 7) ∧ 2 ^ 17 ≤ B.nrows * B.ncols) := by
  have d := Chk.rep_dm hC
  rw [hd.nrows, hd.ncols, hd.fid] at d
  have e := Chk.mulScalar_eq dbg (Chk.rep_dm hB) d (sm hB hs) hn hs' x
  exact ⟨e, by rw [e]; exact (C18_exact hB hC hd hn x).1⟩

/-- **C63** conversion to the sliced representation, into a given or a new matrix: no access outside the rows, slices or words,
for every number of columns (also none) and every degree -/
theorem C63_slice (dbg : Bool) {S : Slice} (hA : Rep A M) (hS : SRep S N) (hr : S.nrows = A.nrows) (hc : S.ncols = A.ncols) :
    (∃ R, Chk.slice dbg S A = some R ∧ mzedSlice? S A = some R ∧ SRep R (fun i j => if i < A.nrows ∧ j < A.ncols then M i j else N i j)) ∧
    (∃ R, Chk.sliceNew dbg A = some R ∧ mzedSliceNew? A = some R ∧ SRep R (fun i j => if i < A.nrows ∧ j < A.ncols then M i j else 0)) := by
  have h0 : mzedIsZero A = false → 0 < A.ncols := by
    intro h
    by_contra h'
    have := (C19_is_zero hA).2 (fun i j _ hj => absurd hj (by omega))
    rw [h] at this; cases this
  have h2 := IsField.two_le (ff := ff)
  have h16 := Chk.deg_le (ff := ff)
  have key : ∀ T : Slice, T.nrows = A.nrows → T.ncols = A.ncols → T.depth = ff.degree → Chk.sliceDispatch dbg T A = mzedSliceDispatch T A := by
    intro T h1 h3 h4
    exact Chk.sliceDispatch_eq dbg (by omega) h3 h0 (by rw [hA.ffEq]; exact hA.wEq) (by rw [hA.ffEq]; exact h4) (by rw [hA.ffEq]; exact h2) (by rw [hA.ffEq]; exact h16)
  obtain ⟨R, e1, -, e3⟩ := C26_slice hA hS hr hc
  obtain ⟨⟨R', f1, -, -, -, f5⟩, -⟩ := C26_new hA hS
  refine ⟨⟨R, ?_, e1, e3⟩, ⟨R', ?_, f1, f5⟩⟩
  · rw [← e1]; exact key _ hr hc hS.depthEq
  · rw [← f1]; exact key _ rfl rfl (by show A.ff.degree = _; rw [hA.ffEq])

/-- **C63** conversion to the packed representation, likewise -/
theorem C63_cling {S : Slice} (hA : Rep A M) (hS : SRep S N) (hs : A.bitCols < 2 ^ 31) (hr : A.nrows = S.nrows) (hc : A.ncols = S.ncols) :
    (∃ R, Chk.cling A S = some R ∧ mzedCling? A S = some R ∧ Rep R (fun i j => if i < S.nrows ∧ j < S.ncols then N i j else M i j)) ∧
    (∃ R, Chk.clingNew S = some R ∧ mzedClingNew? S = some R ∧ Rep R (fun i j => if i < S.nrows ∧ j < S.ncols then N i j else 0)) := by
  have h0 : mzdSliceIsZero S = false → 0 < S.ncols := by
    intro h
    by_contra h'
    have := (C19_slice_is_zero hS).2 (fun i j _ hj => absurd hj (by omega))
    rw [h] at this; cases this
  have h2 := IsField.two_le (ff := ff)
  have h16 := Chk.deg_le (ff := ff)
  have key : ∀ T : Mzed, T.nrows = S.nrows → T.ncols = S.ncols → T.ff = ff → T.w = degreeToW ff.degree → Chk.clingDispatch T S = mzedClingDispatch T S := by
    intro T h1 h3 h4 h5
    exact Chk.clingDispatch_eq (by omega) h3 h0 (by rw [hS.ffEq]; exact h5) (by rw [hS.ffEq]; exact hS.depthEq) (by rw [hS.ffEq, h4])
      (by rw [hS.ffEq]; exact h2) (by rw [hS.ffEq]; exact h16)
  obtain ⟨R, e1, -, e3⟩ := C26_cling hA hS hr hc
  obtain ⟨-, R', f1, -, -, -, f5⟩ := C26_new hA hS
  refine ⟨⟨R, ?_, e1, e3⟩, ⟨R', ?_, f1, f5⟩⟩
  · rw [← e1]; exact key _ hr hc hA.ffEq hA.wEq
  · rw [← f1]
    unfold Chk.clingNew
    rw [hS.ffEq, ← hc, Chk.int_eq (sm hA hs), Option.bind_some, hc, ← hS.ffEq]
    exact key _ rfl rfl hS.ffEq (by show degreeToW S.ff.degree = _; rw [hS.ffEq])

/-- **C63** cubic multiplication -/
theorem C63_mul_naive (hC : Rep C K) (hA : Rep A M) (hB : Rep B N) (hs : B.bitCols < 2 ^ 31) (hs' : A.bitCols < 2 ^ 31)
    (h1 : C.nrows = A.nrows) (h2 : A.ncols = B.nrows) (h3 : C.ncols = B.ncols) (hf : C.fid = A.fid) (hf' : B.fid = A.fid) :
    Chk.mulNaive C A B = some (mzedMulNaiveAcc C A B) := by
  have d1 := Chk.rep_dm hC
  have d2 := Chk.rep_dm hA
  have d3 := Chk.rep_dm hB
  rw [h1, h3, hf] at d1
  rw [← h2, hf'] at d3
  exact (Chk.mulNaive_eq d1 d2 d3 (sm hB hs) (sm hA hs')).1

/-- **C63** multiplication with Newton-John tables, for every block size (every cache size) -/
theorem C63_mul_newton_john (dbg : Bool) {cb : Codebook} (hcb : cb.Ok ff.degree) (bs : Nat) (hC : Rep C K) (hA : Rep A M) (hB : Rep B N)
    (hs : B.bitCols < 2 ^ 31) (hs' : A.bitCols < 2 ^ 31) (h1 : C.nrows = A.nrows) (h2 : A.ncols = B.nrows) (h3 : C.ncols = B.ncols)
    (hf : C.fid = A.fid) (hf' : B.fid = A.fid) (hn : 0 < B.ncols) :
    Chk.mulNewtonJohn dbg cb bs C A B = some (mzedMulNewtonJohnAcc cb bs C A B) := by
  have d1 := Chk.rep_dm hC
  have d2 := Chk.rep_dm hA
  have d3 := Chk.rep_dm hB
  rw [h1, h3, hf] at d1
  rw [← h2, hf'] at d3
  exact Chk.mulNewtonJohn_eq dbg hcb bs d1 d2 d3 (sm hB hs) (sm hA hs') hn

/-- **C63** both row reductions, for every matrix (also without rows or columns), every table size -/
theorem C63_echelonize (dbg full : Bool) (h : Rep A M) (hs : A.bitCols < 2 ^ 31) :
    Chk.echelonizeNaive dbg A full = some (mzedEchelonizeNaive A full) ∧
    ∀ (cb : Codebook) (optK : Nat) (small : Bool), cb.Ok ff.degree →
      Chk.echelonizeNewtonJohn dbg cb optK small A full = some (mzedEchelonizeNewtonJohn cb optK small A full) :=
  ⟨Chk.echelonizeNaive_eq dbg full (Chk.rep_dm h) (sm h hs),
    fun _ optK small hcb => Chk.echelonizeNj_eq dbg hcb optK small full (Chk.rep_dm h) (sm h hs)⟩

/-- **C63** triangular solving from the left, lower -/
theorem C63_trsm_lower (dbg : Bool) (hL : Rep L M) (hB : Rep B N) (hs : B.bitCols < 2 ^ 31) (hs' : L.bitCols < 2 ^ 31)
    (h1 : L.nrows = B.nrows) (h2 : L.ncols = B.nrows) (hf : L.fid = B.fid) (hn : 0 < B.ncols) :
    Chk.trsmLowerNaive dbg L B = some (mzedTrsmLowerLeftNaive L B) ∧
    ∀ cb : Codebook, cb.Ok ff.degree → Chk.trsmLowerNj dbg cb L B = some (mzedTrsmLowerLeftNewtonJohn cb L B) := by
  have d1 := Chk.rep_dm hL
  have s1 := sm hL hs'
  rw [h1, h2, hf] at d1
  rw [h2] at s1
  exact ⟨(Chk.trsmLowerNaive_eq dbg d1 (Chk.rep_dm hB) (sm hB hs) s1 hn).1, fun _ hcb => (Chk.trsmLowerNj_eq dbg hcb d1 (Chk.rep_dm hB) (sm hB hs) s1 hn).1⟩

/-- **C63** triangular solving from the left, upper -/
theorem C63_trsm_upper (dbg : Bool) (hU : Rep U M) (hB : Rep B N) (hs : B.bitCols < 2 ^ 31) (hs' : U.bitCols < 2 ^ 31)
    (h1 : U.nrows = B.nrows) (h2 : U.ncols = B.nrows) (hf : U.fid = B.fid) (hn : 0 < B.ncols) :
    Chk.trsmUpperNaive dbg U B = some (mzedTrsmUpperLeftNaive U B) ∧
    ∀ cb : Codebook, cb.Ok ff.degree → Chk.trsmUpperNj dbg cb U B = some (mzedTrsmUpperLeftNewtonJohn cb U B) := by
  have d1 := Chk.rep_dm hU
  have s1 := sm hU hs'
  rw [h1, h2, hf] at d1
  rw [h2] at s1
  exact ⟨(Chk.trsmUpperNaive_eq dbg d1 (Chk.rep_dm hB) (sm hB hs) s1 hn).1, fun _ hcb => (Chk.trsmUpperNj_eq dbg hcb d1 (Chk.rep_dm hB) (sm hB hs) s1 hn).1⟩

/-- **C63** both PLE decompositions; the permutations are accessed below `nrows` and `ncols` -/
theorem C63_ple (dbg : Bool) (h : Rep A M) (hs : A.bitCols < 2 ^ 31) (P Q : Nat → Nat) :
    Chk.pleNaive dbg A P Q = some (mzedPleNaive A P Q) ∧
    ∀ cb : Codebook, cb.Ok ff.degree → Chk.pleNewtonJohn dbg cb A P Q = some (mzedPleNewtonJohn cb A P Q) :=
  ⟨Chk.pleNaive_eq dbg (Chk.rep_dm h) (sm h hs) P Q, fun _ hcb => Chk.pleNj_eq dbg hcb (Chk.rep_dm h) (sm h hs) P Q⟩

end

/-- The hypotheses are met, e.g. by a window of the shape 3 x 5 over GF(2^8) and a 5 x 5 matrix, with the reflected Gray code. -/
example : ∃ ff, ∃ _ : IsField ff, ∃ (A B : Mzed) (M N : Nat → Nat → Elem ff), Rep A M ∧ Rep B N ∧ A.nrows = 3 ∧ A.ncols = 5 ∧ B.nrows = 5 ∧
    B.ncols = 5 ∧ A.bitCols < 2 ^ 31 ∧ B.bitCols < 2 ^ 31 ∧ B.fid = A.fid ∧ M 2 4 = 1 ∧ M 3 7 = 1 ∧ grayCode.Ok ff.degree := by
  obtain ⟨ff, h, h8⟩ := exists_aes
  refine ⟨ff, h, _, _, _, _, pack_rep ⟨3, 5, 0, fun i j => if j = 2 * i ∨ j = 2 * i + 1 then 1 else 0⟩, pack_rep ⟨5, 5, 0, fun i j => if i = j then 1 else 0⟩,
    rfl, rfl, rfl, rfl, ?_, ?_, rfl, by simp, by simp, grayCode_ok _⟩
  · show degreeToW ff.degree * 5 < _; rw [h8]; decide
  · show degreeToW ff.degree * 5 < _; rw [h8]; decide

/-! ### the preconditions cannot be dropped -/

/-- **C63** exception: a matrix without columns.  Scaling a row (also by the calls inside scalar multiplication and triangular
solving) reads the first word of a row that has none, and fails the assertion. -/
theorem C63_violation_no_columns (dbg : Bool) {ff : Gf2e} [IsField ff] {A : Mzed} {M : Nat → Nat → Elem ff} (h : Rep A M) (h0 : A.ncols = 0)
    (r : Nat) (x : Word) :
    Chk.rescaleRow dbg A r 0 x = none ∧ (0 < A.nrows → Chk.rescaleAll dbg x A.nrows A = none) ∧
    (∀ L N, Rep (ff := ff) L N → 0 < A.nrows → Chk.trsmLowerNaive dbg L A = none ∧ Chk.trsmUpperNaive dbg L A = none) := by
  have hw : A.width = 0 := by unfold Mzed.width Mzed.bitCols; rw [h0, Nat.mul_zero]
  have key : ∀ r x, Chk.rescaleRow dbg A r 0 x = none := by
    intro r x
    obtain ⟨code, h1, h2, h3⟩ := Chk.rescaleCode_shr h.wf.okW
    unfold Chk.rescaleRow
    cases dbg
    · rw [show Chk.assert? false (0 < A.ncols) = some () from if_neg (by simp), Option.bind_some, Nat.mul_zero,
        show Chk.int? 0 = some 0 from rfl, Option.bind_some, h1]
      simp only []
      by_cases hr : r < A.nrows
      · rw [Chk.rowOf_eq hr, Option.bind_some]
        unfold Chk.rescaleWords
        rw [show Chk.rightMask (64 - 0 % 64) = some (rightBitmask 64) from Chk.rightMask_eq (by omega)]
        simp only [Option.bind_some, hw]
        rw [show Chk.ldr 0 (A.words r) (0 / 64) = none from if_neg (by omega)]
        rfl
      · rw [show Chk.rowOf A r = none from if_neg hr]; rfl
    · rw [show Chk.assert? true (0 < A.ncols) = none from if_pos ⟨rfl, by omega⟩]; rfl
  have loop : ∀ (f : Nat → Mzed → Option Mzed) n, 0 < n → f 0 A = none → Chk.forC f n A = none := by
    intro f n
    induction n with
    | zero => omega
    | succ n ih =>
      intro _ hf
      rcases Nat.eq_zero_or_pos n with rfl | hn
      · exact hf
      · show (Chk.forC f n A).bind _ = none; rw [ih hn hf]; rfl
  refine ⟨key r x, fun hn => loop _ _ hn (key 0 x), fun L N _ hn => ⟨?_, ?_⟩⟩
  · unfold Chk.trsmLowerNaive
    cases Chk.trsmAssert dbg L A with
    | none => rfl
    | some _ =>
    refine loop _ _ hn ?_
    show (Chk.readElem L 0 0).bind _ = none
    cases Chk.readElem L 0 0 with
    | none => rfl
    | some v =>
      show (Chk.inv L.ff v).bind _ = none
      cases Chk.inv L.ff v with
      | none => rfl
      | some y => exact key 0 y
  · unfold Chk.trsmUpperNaive
    cases Chk.trsmAssert dbg L A with
    | none => rfl
    | some _ =>
    refine loop _ _ hn ?_
    simp only []
    rw [show A.nrows - (A.nrows - 1 - 0 + 1) = 0 by omega]
    show (Chk.readElem L _ _).bind _ = none
    cases Chk.readElem L (A.nrows - 1 - 0) (A.nrows - 1 - 0) with
    | none => rfl
    | some v =>
      show (Chk.inv L.ff v).bind _ = none
      cases Chk.inv L.ff v with
      | none => rfl
      | some y => exact key _ y

/-- **C63** exception: starting at a column the matrix does not have fails the assertion; without assertions words
outside the row are accessed whenever the start lies in a word behind the row. -/
theorem C63_violation_start {A B : Mzed} {ar br c : Nat} (x : Word) :
    (A.ncols ≤ c → Chk.rescaleRow true A ar c x = none ∧ Chk.addRow true A ar B br c = none ∧ Chk.addMultipleOfRow true A ar B br x c = none) ∧
    (A.width ≤ A.w * c / 64 → Chk.addRow false A ar B br c = none) := by
  refine ⟨fun hc => ⟨?_, ?_, ?_⟩, fun hc => ?_⟩
  · unfold Chk.rescaleRow; rw [show Chk.assert? true (c < A.ncols) = none from if_pos ⟨rfl, by omega⟩]; rfl
  · unfold Chk.addRow
    rw [show Chk.assert? true (c < A.ncols) = none from if_pos ⟨rfl, by omega⟩]
    cases Chk.assert? true (A.ncols = B.ncols ∧ A.fid = B.fid) <;> rfl
  · unfold Chk.addMultipleOfRow
    rw [show Chk.assert? true (c < A.ncols) = none from if_pos ⟨rfl, by omega⟩]
    cases Chk.assert? true (A.ncols = B.ncols ∧ A.fid = B.fid) <;> rfl
  · unfold Chk.addRow
    rw [show Chk.assert? false (A.ncols = B.ncols ∧ A.fid = B.fid) = some () from if_neg (by simp),
      show Chk.assert? false (c < A.ncols) = some () from if_neg (by simp), Option.bind_some, Option.bind_some]
    cases h1 : Chk.int? (A.w * c) with
    | none => rfl
    | some st =>
      have : st = A.w * c := by
        unfold Chk.int? at h1
        split at h1
        · exact (Option.some.inj h1).symm
        · cases h1
      subst this
      rw [Option.bind_some]
      cases Chk.rightMask (64 - A.w * c % 64) with
      | none => rfl
      | some m =>
        cases Chk.rowOf A ar with
        | none => rfl
        | some a =>
          cases Chk.rowOf B br with
          | none => rfl
          | some b =>
            simp only [Option.bind_some]
            rw [if_neg (by omega)]
            cases Chk.ldr B.width b (A.w * c / 64) with
            | none => rfl
            | some v =>
              simp only [Option.bind_some]
              unfold Chk.xorAt
              rw [show Chk.ldr A.width a (A.w * c / 64) = none from if_neg (by omega)]
              rfl

/-- **C63** exception: in rows of `2^31` bits or more the position of an entry is not an `int`. -/
theorem C63_violation_int {A : Mzed} {i j : Nat} (h : 2 ^ 31 ≤ A.w * j) (x : Word) :
    Chk.readElem A i j = none ∧ Chk.addElem A i j x = none ∧ Chk.writeElem A i j x = none := by
  have : Chk.int? (A.w * j) = none := if_neg (by omega)
  unfold Chk.readElem Chk.addElem Chk.writeElem
  rw [this]
  exact ⟨rfl, rfl, rfl⟩

/-- **C63** exception: over fields of degree up to 8 a word that is not an element of the field indexes the multiplication
table out of its bounds. -/
theorem C63_violation_not_an_element {f : Word} {ff : Gf2e} (h : gf2eInit f = some ff) (hd : ff.degree ≤ 8) {x y : Word} (hx : 2 ^ ff.degree ≤ x.toNat) :
    Chk.fmul ff x y = none ∧ Chk.fmul ff y x = none := by
  obtain ⟨t, ht⟩ : ∃ t, ff.mulTab = some t := by
    unfold gf2eInit at h
    simp only [] at h
    cases hr : redLoop f (initDegree f) (2 ^ initDegree f - 1) with
    | none => rw [hr] at h; cases h
    | some red =>
      rw [hr] at h
      obtain rfl := Option.some.inj h
      exact ⟨_, if_pos hd⟩
  unfold Chk.fmul
  rw [ht]
  exact ⟨if_neg (by omega), if_neg (by omega)⟩

end M4rie.Props
