import Verif.Model.CheckedProg
import Verif.Spec.Fit
import Verif.Proofs.CheckedApi
import Verif.Proofs.CheckedBlm
import Verif.Props.Checked
import Verif.Props.CheckedRec
import Verif.Props.CheckedSlice
import Verif.Props.CheckedPle
import Verif.Props.ProgramsSolve

/-!
# Property C66: no program that the specification permits triggers undefined behaviour or a failed assertion
-/

namespace M4rie.Props
open M4rie M4rie.Spec M4rie.Chk

section base
variable {lib : Lib} [IsField lib.ff]

theorem HoldsP.dm {A : Mzed} {m n : Nat} {X : Matrix (Fin m) (Fin n) (Elem lib.ff)} (h : HoldsP lib A X) : Dm lib.ff m n lib.fid A := by
  obtain ⟨-, rfl, rfl, M, hM, -⟩ := id h
  have := rep_dm hM
  rwa [h.1] at this

theorem HoldsS.sd {A : Slice} {m n : Nat} {X : Matrix (Fin m) (Fin n) (Elem lib.ff)} (h : HoldsS lib A X) : Sd lib.ff m n lib.fid A := by
  obtain ⟨-, rfl, rfl, M, hM, -⟩ := id h
  have := srep_sd hM
  rwa [h.1] at this

variable {c : Pool} {s : AState (Elem lib.ff)} {l2 : Nat}

/-- a call permitted by the specification does the same with every access checked -/
theorem call_checked (dbg : Bool) (hlib : LibOk lib) (hmed : ∀ m n, lib.medium m n = decide (m * n * degreeToW lib.ff.degree ≤ 2 * (l2 * 4)))
    (h : Stores lib c s) {op : Op (Elem lib.ff)} {out : Out (Elem lib.ff)} {s' : AState (Elem lib.ff)} (hop : Allowed (badScalar lib) s op out s')
    (hs : Sized (degreeToW lib.ff.degree) s) (hfit : OpFits (degreeToW lib.ff.degree) s op) (hs' : Sized (degreeToW lib.ff.degree) s') :
    Chk.call dbg l2 lib c op = M4rie.call lib c op := by
  have setq : ∀ (d : Nat) (Y : AMat (Elem lib.ff)), (s.set d (some Y)) d = some Y := fun d Y => if_pos rfl
  cases hop with
  | init t d m n hd =>
    obtain ⟨-, hn, hn'⟩ := hs' d _ (setq d _)
    cases t with
    | false => simp only [Chk.call, M4rie.call]; rw [(init_dm hn').1]; rfl
    | true => simp only [Chk.call, M4rie.call]; rw [sliceInit_eq]; rfl
  | free d hd => rfl
  | @readElem a m n t X i j ha =>
    obtain ⟨-, hn, hn'⟩ := hs _ _ ha
    cases t with
    | false =>
      obtain ⟨A, e, H⟩ := h.packed ha
      obtain ⟨f, r, cc, M, hM, hX⟩ := id H
      simp only [Chk.call, M4rie.call, e]
      rw [Chk.readElem_eq hM (by omega) (by omega) (by rw [H.dm.bitCols_eq]; exact hn'), C12_read hM]; rfl
    | true =>
      obtain ⟨A, e, H⟩ := h.sliced ha
      obtain ⟨x, e1, e2⟩ := H.sd.read i.2 j.2
      simp only [Chk.call, M4rie.call, e, e1, e2]; rfl
  | @writeElem d m n t X i j x ha =>
    obtain ⟨-, hn, hn'⟩ := hs _ _ ha
    cases t with
    | false =>
      obtain ⟨A, e, H⟩ := h.packed ha
      obtain ⟨f, r, cc, M, hM, hX⟩ := id H
      simp only [Chk.call, M4rie.call, e]
      rw [Chk.writeElem_eq hM (by omega) (by omega) (by rw [H.dm.bitCols_eq]; exact hn')]; rfl
    | true =>
      obtain ⟨A, e, H⟩ := h.sliced ha
      simp only [Chk.call, M4rie.call, e]
      rw [(H.sd.writeElem i.2 j.2 x).1]; rfl
  | @addElem d m n t X i j x ha =>
    obtain ⟨-, hn, hn'⟩ := hs _ _ ha
    cases t with
    | false =>
      obtain ⟨A, e, H⟩ := h.packed ha
      obtain ⟨f, r, cc, M, hM, hX⟩ := id H
      simp only [Chk.call, M4rie.call, e]
      rw [Chk.addElem_eq hM (by omega) (by omega) (by rw [H.dm.bitCols_eq]; exact hn')]; rfl
    | true =>
      obtain ⟨A, e, H⟩ := h.sliced ha
      simp only [Chk.call, M4rie.call, e]
      rw [sliceAddElem_eq H.sd i.2 j.2]; rfl
  | @setUi d m n t X x ha =>
    obtain ⟨-, hn, hn'⟩ := hs _ _ ha
    cases t with
    | false =>
      obtain ⟨A, e, H⟩ := h.packed ha
      simp only [Chk.call, M4rie.call, e]
      rw [(Chk.setUi_eq H.dm hn' x).1]; rfl
    | true =>
      obtain ⟨A, e, H⟩ := h.sliced ha
      simp only [Chk.call, M4rie.call, e]
      rw [sliceSetUi_eq H.sd]; rfl
  | @rowSwap d m n t X i j ha =>
    obtain ⟨-, hn, hn'⟩ := hs _ _ ha
    cases t with
    | false =>
      obtain ⟨A, e, H⟩ := h.packed ha
      obtain ⟨f, r, cc, M, hM, hX⟩ := id H
      simp only [Chk.call, M4rie.call, e]
      rw [(C63_swaps hM (by rw [H.dm.bitCols_eq]; exact hn')).1 _ _ (by omega) (by omega)]; rfl
    | true =>
      obtain ⟨A, e, H⟩ := h.sliced ha
      simp only [Chk.call, M4rie.call, e]
      rw [sliceRowSwap_eq H.sd i.2 j.2]; rfl
  | @colSwap d m n t X i j ha =>
    obtain ⟨-, hn, hn'⟩ := hs _ _ ha
    cases t with
    | false =>
      obtain ⟨A, e, H⟩ := h.packed ha
      simp only [Chk.call, M4rie.call, e]
      rw [(H.dm.colSwapAll hn' i.2 j.2).1]; rfl
    | true =>
      obtain ⟨A, e, H⟩ := h.sliced ha
      simp only [Chk.call, M4rie.call, e]
      rw [sliceColSwap_eq H.sd i.2 j.2]; rfl
  | @rescaleRow d m n X i col x ha =>
    obtain ⟨-, hn, hn'⟩ := hs _ _ ha
    obtain ⟨A, e, H⟩ := h.packed ha
    obtain ⟨f, r, cc, M, hM, hX⟩ := id H
    simp only [Chk.call, M4rie.call, e]
    rw [(C63_row_ops dbg hM hM (by rw [H.dm.bitCols_eq]; exact hn') rfl rfl (ar := i) (br := i) (c := col) (by omega) (by omega) (by omega) x).2.1]; rfl
  | @addMultipleOfRow d a m m' n X Y i j x col hd ha hda =>
    obtain ⟨-, hn, hn'⟩ := hs _ _ hd
    obtain ⟨A, e, H⟩ := h.packed hd
    obtain ⟨B, e', H'⟩ := h.packed ha
    obtain ⟨f, r, cc, M, hM, hX⟩ := id H
    obtain ⟨f', r', cc', M', hM', hX'⟩ := id H'
    simp only [Chk.call, M4rie.call, e, e']
    rw [(C63_row_ops dbg hM hM' (by rw [H.dm.bitCols_eq]; exact hn') (by omega) (by omega) (ar := i) (br := j) (c := col) (by omega) (by omega) (by omega) x).2.2]; rfl
  | @copy d a m n t X Y hd ha =>
    cases t with
    | false =>
      obtain ⟨A, e, H⟩ := h.packed hd
      obtain ⟨B, e', H'⟩ := h.packed ha
      simp only [Chk.call, M4rie.call, e, e']
      rw [copy_eq H.dm H'.dm]
    | true =>
      obtain ⟨A, e, H⟩ := h.sliced hd
      obtain ⟨B, e', H'⟩ := h.sliced ha
      simp only [Chk.call, M4rie.call, e, e']
      rw [(sliceCopy_eqv H.sd H'.sd).1]; rfl
  | @convert d a m n t X hd ha =>
    obtain ⟨-, hn, hn'⟩ := hs _ _ ha
    cases t with
    | false =>
      obtain ⟨A, e, H⟩ := h.packed ha
      simp only [Chk.call, M4rie.call, e]
      rw [(sliceNew_eqv dbg H.dm).1]
    | true =>
      obtain ⟨A, e, H⟩ := h.sliced ha
      simp only [Chk.call, M4rie.call, e]
      rw [(clingNew_eqv hn' H.sd).1]
  | @add d a b m n t X Y Z hd ha hb =>
    cases t with
    | false =>
      obtain ⟨D, e, H⟩ := h.packed hd
      obtain ⟨A, e', H'⟩ := h.packed ha
      obtain ⟨B, e'', H''⟩ := h.packed hb
      simp only [Chk.call, M4rie.call, e, e', e'']
      rw [add_eq H.dm H'.dm H''.dm]
    | true =>
      obtain ⟨D, e, H⟩ := h.sliced hd
      obtain ⟨A, e', H'⟩ := h.sliced ha
      obtain ⟨B, e'', H''⟩ := h.sliced hb
      simp only [Chk.call, M4rie.call, e, e', e'']
      rw [sliceAdd_eq H.sd H'.sd H''.sd]
  | @mulScalarPacked d a m n X Z x hd ha hn hb =>
    obtain ⟨-, -, hn'⟩ := hs _ _ hd
    obtain ⟨A, e, H⟩ := h.packed hd
    obtain ⟨B, e', H'⟩ := h.packed ha
    simp only [Chk.call, M4rie.call, e, e']
    rw [Chk.mulScalar_eq dbg H'.dm H.dm hn' hn (hfit _ hd rfl)]
  | @mulScalarSliced d a m n X Z x hd ha hda =>
    obtain ⟨A, e, H⟩ := h.sliced hd
    obtain ⟨B, e', H'⟩ := h.sliced ha
    simp only [Chk.call, M4rie.call, e, e']
    rw [(sliceMulScalar_eqv dbg H.sd H'.sd x).1]
  | @mul d a b m k n t X Y Z hd ha hb _ _ hn =>
    obtain ⟨-, -, hn'⟩ := hs _ _ hd
    obtain ⟨-, -, hk'⟩ := hs _ _ ha
    cases t with
    | false =>
      obtain ⟨D, e, H⟩ := h.packed hd
      obtain ⟨A, e', H'⟩ := h.packed ha
      obtain ⟨B, e'', H''⟩ := h.packed hb
      simp only [Chk.call, M4rie.call, e, e', e'']
      rw [(mulM_eqv hlib.mul.cb hlib.mul.bs dbg hk' hn' _ _ _ H.dm H'.dm H''.dm).1]
    | true =>
      obtain ⟨D, e, H⟩ := h.sliced hd
      obtain ⟨A, e', H'⟩ := h.sliced ha
      obtain ⟨B, e'', H''⟩ := h.sliced hb
      simp only [Chk.call, M4rie.call, e, e', e'']
      rw [(sliceMulKaratsuba_eqv H.sd H'.sd H''.sd).1]
  | @addmul d a b m k n t X Y Z hd ha hb _ _ hn =>
    obtain ⟨-, -, hn'⟩ := hs _ _ hd
    obtain ⟨-, -, hk'⟩ := hs _ _ ha
    cases t with
    | false =>
      obtain ⟨D, e, H⟩ := h.packed hd
      obtain ⟨A, e', H'⟩ := h.packed ha
      obtain ⟨B, e'', H''⟩ := h.packed hb
      simp only [Chk.call, M4rie.call, e, e', e'']
      rw [(addmulM_eqv hlib.mul.cb hlib.mul.bs dbg hk' hn' _ _ _ H.dm H'.dm H''.dm).1]
    | true =>
      obtain ⟨D, e, H⟩ := h.sliced hd
      obtain ⟨A, e', H'⟩ := h.sliced ha
      obtain ⟨B, e'', H''⟩ := h.sliced hb
      simp only [Chk.call, M4rie.call, e, e', e'']
      rw [(sliceAddmulKaratsuba_eqv H.sd H'.sd H''.sd).1]
  | @concat d a b m p q t X Y hd ha hb =>
    obtain ⟨-, -, hpq⟩ := hs' d _ (setq d _)
    cases t with
    | false =>
      obtain ⟨A, e', H'⟩ := h.packed ha
      obtain ⟨B, e'', H''⟩ := h.packed hb
      simp only [Chk.call, M4rie.call, e', e'']
      rw [(concat_eq H'.dm H''.dm hpq).1]; rfl
    | true =>
      obtain ⟨A, e', H'⟩ := h.sliced ha
      obtain ⟨B, e'', H''⟩ := h.sliced hb
      simp only [Chk.call, M4rie.call, e', e'']
      rw [sliceConcat_eq H'.sd H''.sd (sm_int (ff := lib.ff) okW_ff.pos hpq)]; rfl
  | @stack d a b p q n t X Y hd ha hb =>
    obtain ⟨hpq, -, hn'⟩ := hs' d _ (setq d _)
    cases t with
    | false =>
      obtain ⟨A, e', H'⟩ := h.packed ha
      obtain ⟨B, e'', H''⟩ := h.packed hb
      simp only [Chk.call, M4rie.call, e', e'']
      rw [stack_eq H'.dm H''.dm hn' hpq]; rfl
    | true =>
      obtain ⟨A, e', H'⟩ := h.sliced ha
      obtain ⟨B, e'', H''⟩ := h.sliced hb
      simp only [Chk.call, M4rie.call, e', e'']
      rw [sliceStack_eq H'.sd H''.sd hpq]; rfl
  | @submatrix d a m n lr lc p q t X hr hc hd ha =>
    obtain ⟨-, -, hn'⟩ := hs _ _ ha
    cases t with
    | false =>
      obtain ⟨A, e', H'⟩ := h.packed ha
      simp only [Chk.call, M4rie.call, e']
      rw [submatrix_eq H'.dm hn' (by omega) hr (by omega) hc]; rfl
    | true =>
      obtain ⟨A, e', H'⟩ := h.sliced ha
      simp only [Chk.call, M4rie.call, e']
      rw [(sliceSubmatrix_eq H'.sd (by omega) hr (by omega) hc rfl rfl).1]; rfl
  | @echelonize d m n t X Y full piv hd _ _ _ =>
    obtain ⟨-, -, hn'⟩ := hs _ _ hd
    cases t with
    | false =>
      obtain ⟨A, e', H'⟩ := h.packed hd
      obtain ⟨Z, rfl, rfl, rfl, -⟩ := H'.dm
      simp only [Chk.call, M4rie.call, e']
      rw [Chk.echelonize_eq dbg hlib.compress hlib.cb Z hn' l2 lib.optK lib.smallNj full (hfit _ hd rfl),
        show lib.medium = fun m n => decide (m * n * degreeToW lib.ff.degree ≤ 2 * (l2 * 4)) from funext fun m => funext fun n => hmed m n]
    | true =>
      obtain ⟨A, e', H'⟩ := h.sliced hd
      obtain ⟨Z, rfl, rfl, rfl, -⟩ := H'.sd
      simp only [Chk.call, M4rie.call, e']
      rw [sliceEchelonizePle_eq dbg hlib.compress hlib.cb Z hn' full]
  | @invert d a n X hd ha _ =>
    obtain ⟨-, hn, -⟩ := hs _ _ ha
    obtain ⟨A, e', H'⟩ := h.packed ha
    simp only [Chk.call, M4rie.call, e']
    rw [invert_eq dbg hlib.cb lib.optK lib.smallNj H'.dm (hfit _ ha) hn]
  | @trsmLower a d m n t L B hd ha _ hn _ =>
    obtain ⟨-, -, hn'⟩ := hs _ _ hd
    obtain ⟨-, -, hm'⟩ := hs _ _ ha
    cases t with
    | false =>
      obtain ⟨D, e, H⟩ := h.packed hd
      obtain ⟨A, e', H'⟩ := h.packed ha
      simp only [Chk.call, M4rie.call, e, e']
      exact congrArg (putP c d) (trsmLowerF_eqv (mzedOps dbg hlib.mul.cb hlib.mul.bs) dbg mzedTrsmCutoff (D.nrows + 1) _ _ A D H'.dm H.dm hm' hn' hn).1
    | true =>
      obtain ⟨D, e, H⟩ := h.sliced hd
      obtain ⟨A, e', H'⟩ := h.sliced ha
      simp only [Chk.call, M4rie.call, e, e']
      exact congrArg (putS c d) (trsmLowerF_eqv (sliceOps dbg hlib.cb) dbg mzedTrsmCutoff (D.nrows + 1) _ _ A D H'.sd H.sd hm' hn' hn).1
  | @trsmUpper a d m n t L B hd ha _ hn _ =>
    obtain ⟨-, -, hn'⟩ := hs _ _ hd
    obtain ⟨-, -, hm'⟩ := hs _ _ ha
    cases t with
    | false =>
      obtain ⟨D, e, H⟩ := h.packed hd
      obtain ⟨A, e', H'⟩ := h.packed ha
      simp only [Chk.call, M4rie.call, e, e']
      exact congrArg (putP c d) (trsmUpperF_eqv (mzedOps dbg hlib.mul.cb hlib.mul.bs) dbg mzedTrsmCutoff (D.nrows + 1) _ _ A D H'.dm H.dm hm' hn' hn).1
    | true =>
      obtain ⟨D, e, H⟩ := h.sliced hd
      obtain ⟨A, e', H'⟩ := h.sliced ha
      simp only [Chk.call, M4rie.call, e, e']
      exact congrArg (putS c d) (trsmUpperF_eqv (sliceOps dbg hlib.cb) dbg mzedTrsmCutoff (D.nrows + 1) _ _ A D H'.sd H.sd hm' hn' hn).1
  | @isZero a m n t X ha =>
    obtain ⟨-, hn, -⟩ := hs _ _ ha
    cases t with
    | false =>
      obtain ⟨A, e', H'⟩ := h.packed ha
      simp only [Chk.call, M4rie.call, e']
      rw [isZero_eq H'.dm hn]; rfl
    | true =>
      obtain ⟨A, e', H'⟩ := h.sliced ha
      simp only [Chk.call, M4rie.call, e']
      rw [sliceIsZero_eq H'.sd hn]; rfl
  | @equal a b m n t X Y ha hb =>
    obtain ⟨-, hn, -⟩ := hs _ _ ha
    cases t with
    | false =>
      obtain ⟨A, e', H'⟩ := h.packed ha
      obtain ⟨B, e'', H''⟩ := h.packed hb
      simp only [Chk.call, M4rie.call, e', e'']
      rw [equal_eq H'.dm H''.dm hn]; rfl
    | true =>
      obtain ⟨A, e', H'⟩ := h.sliced ha
      obtain ⟨B, e'', H''⟩ := h.sliced hb
      simp only [Chk.call, M4rie.call, e', e'']
      rw [sliceEqual_eq H'.sd H''.sd hn]; rfl

end base

variable {pl : PLib} [IsField pl.ff]

section named
variable {c : Pool} {s : AState (Elem pl.ff)}

theorem mulInit_bind (C A B : Mzed) (f : Mzed → Option Mzed) :
    ((mzedMulInit? C A B true).bind f = if A.ncols ≠ B.nrows ∨ A.fid ≠ B.fid then none else
      if C.fid ≠ A.fid ∨ C.nrows ≠ A.nrows ∨ C.ncols ≠ B.ncols then none else f (mzedSetUi C 0#64)) ∧
    ((mzedMulInit? C A B false).bind f = if A.ncols ≠ B.nrows ∨ A.fid ≠ B.fid then none else
      if C.fid ≠ A.fid ∨ C.nrows ≠ A.nrows ∨ C.ncols ≠ B.ncols then none else f C) := by
  unfold mzedMulInit?
  constructor <;> split <;> first | rfl | (split <;> rfl)

/-- an algorithm asked for by name does the same with every access checked -/
theorem callBy_checked (dbg : Bool) (hlib : PLibOk pl) (h : Stores pl.toLib c s) {alg : Alg} {op : Op (Elem pl.ff)} {out : Out (Elem pl.ff)}
    {s' : AState (Elem pl.ff)} {X : AMat (Elem pl.ff)} (hX : s (subject op) = some X) (hoff : Offered (bitsOf pl) X.sliced alg op)
    (hop : Allowed (badScalar pl.toLib) s op out s') (hs : Sized (bitsOf pl) s) : Chk.callBy dbg pl c alg op = M4rie.callBy pl c alg op := by
  cases hop with
  | @mul d a b m k n t X Y Z hd ha hb _ _ hn =>
    obtain rfl := Option.some.inj (hd.symm.trans hX)
    obtain ⟨-, -, hn'⟩ := hs _ _ hd
    obtain ⟨-, -, hk'⟩ := hs _ _ ha
    cases t with
    | false =>
      obtain ⟨D, e, H⟩ := h.packed hd
      obtain ⟨A, e', H'⟩ := h.packed ha
      obtain ⟨B, e'', H''⟩ := h.packed hb
      obtain ⟨f, r, cc, M, hM, -⟩ := id H
      obtain ⟨f', r', cc', M', hM', -⟩ := id H'
      obtain ⟨f'', r'', cc'', M'', hM'', -⟩ := id H''
      simp only [Chk.callBy, M4rie.callBy, e, e', e'']
      refine congrArg (putP c d) ?_
      cases alg with
      | naive => exact mulNaiveTop_eq true H.dm H'.dm H''.dm hn' hk'
      | newtonJohn => exact mulNjTop_eq dbg hlib.mul.cb pl.mulEnv.bs true H.dm H'.dm H''.dm hn' hk' hn
      | strassen cutoff =>
        exact (C64_mul_strassen hlib.mul.cb hlib.mul.bs hM' hM'' hM ⟨by omega, by omega, by omega, by omega, by omega⟩
          (by rw [H'.dm.bitCols_eq]; exact hk') (by rw [H''.dm.bitCols_eq]; exact hn') dbg cutoff).1
      | karatsuba => exact (mulKaraTop_eq dbg true H.dm H'.dm H''.dm hn').trans (mulInit_bind ..).1
      | blm => exact (mulBlm_eq hlib.blm hlib.fuel dbg true hn' H.dm H'.dm H''.dm).trans (mulInit_bind ..).1
      | ple => rfl
    | true =>
      obtain ⟨D, e, H⟩ := h.sliced hd
      obtain ⟨A, e', H'⟩ := h.sliced ha
      obtain ⟨B, e'', H''⟩ := h.sliced hb
      simp only [Chk.callBy, M4rie.callBy, e, e', e'']
      refine congrArg (putS c d) ?_
      cases alg with
      | blm => exact sliceMulBlm_eq hlib.blm hlib.fuel dbg H.sd H'.sd H''.sd
      | _ => rfl
  | @addmul d a b m k n t X Y Z hd ha hb _ _ hn =>
    obtain rfl := Option.some.inj (hd.symm.trans hX)
    obtain ⟨-, -, hn'⟩ := hs _ _ hd
    obtain ⟨-, -, hk'⟩ := hs _ _ ha
    cases t with
    | false =>
      obtain ⟨D, e, H⟩ := h.packed hd
      obtain ⟨A, e', H'⟩ := h.packed ha
      obtain ⟨B, e'', H''⟩ := h.packed hb
      obtain ⟨f, r, cc, M, hM, -⟩ := id H
      obtain ⟨f', r', cc', M', hM', -⟩ := id H'
      obtain ⟨f'', r'', cc'', M'', hM'', -⟩ := id H''
      simp only [Chk.callBy, M4rie.callBy, e, e', e'']
      refine congrArg (putP c d) ?_
      cases alg with
      | naive => exact mulNaiveTop_eq false H.dm H'.dm H''.dm hn' hk'
      | newtonJohn => exact mulNjTop_eq dbg hlib.mul.cb pl.mulEnv.bs false H.dm H'.dm H''.dm hn' hk' hn
      | strassen cutoff =>
        exact (C64_addmul_strassen hlib.mul.cb hlib.mul.bs hM' hM'' hM ⟨by omega, by omega, by omega, by omega, by omega⟩
          (by rw [H'.dm.bitCols_eq]; exact hk') (by rw [H''.dm.bitCols_eq]; exact hn') dbg cutoff).1
      | karatsuba => exact (mulKaraTop_eq dbg false H.dm H'.dm H''.dm hn').trans (mulInit_bind ..).2
      | blm => exact (mulBlm_eq hlib.blm hlib.fuel dbg false hn' H.dm H'.dm H''.dm).trans (mulInit_bind ..).2
      | ple => rfl
    | true =>
      obtain ⟨D, e, H⟩ := h.sliced hd
      obtain ⟨A, e', H'⟩ := h.sliced ha
      obtain ⟨B, e'', H''⟩ := h.sliced hb
      simp only [Chk.callBy, M4rie.callBy, e, e', e'']
      refine congrArg (putS c d) ?_
      cases alg with
      | naive => exact (sliceAddmulNaive_eqv H.sd H'.sd H''.sd).1
      | blm => exact sliceAddmulBlm_eq hlib.blm hlib.fuel dbg H.sd H'.sd H''.sd
      | _ => rfl
  | @echelonize d m n t X Y full piv hd _ _ _ =>
    obtain rfl := Option.some.inj (hd.symm.trans hX)
    obtain ⟨-, -, hn'⟩ := hs _ _ hd
    cases t with
    | false =>
      obtain ⟨A, e', H'⟩ := h.packed hd
      simp only [Chk.callBy, M4rie.callBy, e']
      refine congrArg (Option.map _) ?_
      cases alg with
      | naive => exact echelonizeNaive_eq dbg full H'.dm hn'
      | newtonJohn => exact echelonizeNj_eq dbg hlib.cb pl.optK pl.smallNj full H'.dm hn'
      | ple =>
        obtain ⟨Z, rfl, rfl, rfl, -⟩ := H'.dm
        exact echelonizePle_eq dbg hlib.compress hlib.cb Z hn' full
      | _ => rfl
    | true => cases alg <;> exact hoff.elim
  | @trsmLower a d m n t L B hd ha _ hn _ =>
    obtain rfl := Option.some.inj (hd.symm.trans hX)
    obtain ⟨-, -, hn'⟩ := hs _ _ hd
    obtain ⟨-, -, hm'⟩ := hs _ _ ha
    cases t with
    | false =>
      obtain ⟨D, e, H⟩ := h.packed hd
      obtain ⟨A, e', H'⟩ := h.packed ha
      simp only [Chk.callBy, M4rie.callBy, e, e']
      refine congrArg (putP c d) ?_
      cases alg with
      | naive => exact (trsmLowerNaive_eq dbg H'.dm H.dm hn' hm' hn).1
      | newtonJohn => exact (trsmLowerNj_eq dbg hlib.cb H'.dm H.dm hn' hm' hn).1
      | _ => rfl
    | true =>
      obtain ⟨D, e, H⟩ := h.sliced hd
      obtain ⟨A, e', H'⟩ := h.sliced ha
      simp only [Chk.callBy, M4rie.callBy, e, e']
      refine congrArg (putS c d) ?_
      cases alg with
      | naive => exact (strsmLowerNaive_eqv dbg H'.sd H.sd hn' hm' hn).1
      | newtonJohn => exact (strsmLowerNj_eqv dbg hlib.cb H'.sd H.sd hn' hm' hn).1
      | _ => rfl
  | @trsmUpper a d m n t L B hd ha _ hn _ =>
    obtain rfl := Option.some.inj (hd.symm.trans hX)
    obtain ⟨-, -, hn'⟩ := hs _ _ hd
    obtain ⟨-, -, hm'⟩ := hs _ _ ha
    cases t with
    | false =>
      obtain ⟨D, e, H⟩ := h.packed hd
      obtain ⟨A, e', H'⟩ := h.packed ha
      simp only [Chk.callBy, M4rie.callBy, e, e']
      refine congrArg (putP c d) ?_
      cases alg with
      | naive => exact (trsmUpperNaive_eq dbg H'.dm H.dm hn' hm' hn).1
      | newtonJohn => exact (trsmUpperNj_eq dbg hlib.cb H'.dm H.dm hn' hm' hn).1
      | _ => rfl
    | true =>
      obtain ⟨D, e, H⟩ := h.sliced hd
      obtain ⟨A, e', H'⟩ := h.sliced ha
      simp only [Chk.callBy, M4rie.callBy, e, e']
      refine congrArg (putS c d) ?_
      cases alg with
      | naive => exact (strsmUpperNaive_eqv dbg H'.sd H.sd hn' hm' hn).1
      | newtonJohn => exact (strsmUpperNj_eqv dbg hlib.cb H'.sd H.sd hn' hm' hn).1
      | _ => rfl
  | _ => cases hXs : X.sliced <;> rw [hXs] at hoff <;> cases alg <;> exact hoff.elim

end named

section perms
variable {c : PPool} {s : PState (Elem pl.ff)}

theorem HoldsPerm.up {P : Mzp} {x : APerm} (hP : HoldsPerm P x) (hx : ∀ i, i ≤ x.arr i) (i : Nat) (hi : i < x.n) : i ≤ P.val i ∧ P.val i < x.n := by
  have e : P.val i = (x.arr ⟨i, hi⟩).1 := hP.2 ⟨i, hi⟩
  rw [e]
  exact ⟨hx ⟨i, hi⟩, (x.arr ⟨i, hi⟩).2⟩

theorem applyBy_checked {d p m n : Nat} {t : Bool} {x : APerm} {X : Matrix (Fin m) (Fin n) (Elem pl.ff)} (h : PStores pl c s) (hasc : Ascending s)
    (hp : s.perm p = some x) (hd : s.mat d = some ⟨t, m, n, X⟩) {f : Mzed → Mzp → Mzed} {g : Slice → Mzp → Slice} {f' : Mzed → Mzp → Option Mzed}
    {g' : Slice → Mzp → Option Slice}
    (hf : ∀ (A : Mzed) (P : Mzp), Dm pl.ff m n pl.fid A → (∀ i, i < x.n → i ≤ P.val i ∧ P.val i < x.n) → f' A P = some (f A P))
    (hg : ∀ (A : Slice) (P : Mzp), Sd pl.ff m n pl.fid A → (∀ i, i < x.n → i ≤ P.val i ∧ P.val i < x.n) → g' A P = some (g A P)) :
    Chk.applyBy (ff := pl.ff) c d p f' g' = M4rie.applyBy c d p f g := by
  obtain ⟨P, ep, HP⟩ := h.perm hp
  cases t with
  | false =>
    obtain ⟨A, e, H⟩ := h.1.packed hd
    simp only [Chk.applyBy, M4rie.applyBy, e, ep]
    rw [hf A P H.dm (HP.up (hasc p x hp))]; rfl
  | true =>
    obtain ⟨A, e, H⟩ := h.1.sliced hd
    simp only [Chk.applyBy, M4rie.applyBy, e, ep]
    rw [hg A P H.sd (HP.up (hasc p x hp))]; rfl

/-- **C66** a call that the specification permits, on matrices that are not too large, does not leave a matrix, a permutation or a table, does not
shift too far, does not overflow an `int`, does not violate a contract of M4RI and fails no assertion: the checked program does what the total one does. -/
theorem C66_agree (dbg : Bool) (hlib : PLibOk pl) (hmed : ∀ m n, pl.medium m n = decide (m * n * bitsOf pl ≤ 2 * (pl.l2 * 4))) (h : PStores pl c s)
    (hasc : Ascending s) (hs : Sized (bitsOf pl) s.mat) {op : POp (Elem pl.ff)} (hfit : POpFits (bitsOf pl) s op) {out : Out (Elem pl.ff)}
    {s' : PState (Elem pl.ff)} (hop : PAllowed (badScalar pl.toLib) (bitsOf pl) s op out s') (hs' : Sized (bitsOf pl) s'.mat) :
    Chk.pcall dbg pl c op = pcall pl c op := by
  cases hop with
  | base hop => exact congrArg (Option.map _) (call_checked dbg hlib.toLibOk hmed h.1 hop hs hfit hs')
  | named hX hoff hop => exact congrArg (Option.map _) (callBy_checked dbg hlib h.1 hX hoff hop hs)
  | permInit p n hp => rfl
  | permFree p hp => rfl
  | applyLeft hp hd =>
    exact applyBy_checked h hasc hp hd (fun A P hA hP => (applyPLeft_eq hA hP).1) (fun A P hA hP => (hA.applyPLeft hP).1)
  | applyLeftTrans hp hd =>
    exact applyBy_checked h hasc hp hd (fun A P hA hP => (applyPLeft_eq hA hP).2) (fun A P hA hP => sliceApplyPLeftTrans_eq hA hP)
  | applyRight hp hd =>
    exact applyBy_checked h hasc hp hd (fun A P hA hP => (applyPRight_eq hA (hs _ _ hd).2.2 fun i hi => (hP i hi).2).1)
      (fun A P hA hP => (hA.applyPRight hP).1)
  | applyRightTrans hp hd =>
    exact applyBy_checked h hasc hp hd (fun A P hA hP => (applyPRight_eq hA (hs _ _ hd).2.2 fun i hi => (hP i hi).2).2)
      (fun A P hA hP => sliceApplyPRightTrans_eq hA hP)
  | @decompose d p q t x x' y y' X F hpq hp hq hd _ _ _ =>
    obtain ⟨P, ep, HP⟩ := h.perm hp
    obtain ⟨Q, eq, HQ⟩ := h.perm hq
    obtain ⟨-, -, hn'⟩ := hs _ _ hd
    cases t with
    | false =>
      obtain ⟨A, e, H⟩ := h.1.packed hd
      obtain ⟨Z, rfl, h1, h2, -⟩ := H.dm
      simp only [Chk.pcall, M4rie.pcall, e, ep, eq]
      unfold mzedPleTop mzedPleTop? putPleP
      rw [Chk.mzedPle_eq dbg (env := pleEnvOf pl.pleEnv.cb pl.pleEnv.compress Z.pack.ff pl.l2 _) hlib.compress hlib.cb Z P Q (by rw [h2]; exact hn') (by rw [h1, HP.1]) (by rw [h2, HQ.1]), Option.map_map]
      rfl
    | true =>
      obtain ⟨A, e, H⟩ := h.1.sliced hd
      obtain ⟨Z, rfl, h1, h2, -⟩ := H.sd
      simp only [Chk.pcall, M4rie.pcall, e, ep, eq]
      unfold slicePleTop mzdSlicePleTop? putPleS
      have l1 : P.length = Z.spack.nrows := HP.1.trans h1.symm
      have l2 : Q.length = Z.spack.ncols := HQ.1.trans h2.symm
      rw [assert_eq l1, Option.bind_some, assert_eq l2, Option.bind_some, if_pos ⟨l1, l2⟩,
        Chk.slicePle_eq dbg (env := pleEnvOf pl.pleEnv.cb pl.pleEnv.compress Z.spack.ff pl.l2 _) hlib.compress hlib.cb Z P Q (by rw [h2]; exact hn') (by rw [h1, HP.1]) (by rw [h2, HQ.1]), Option.map_map, Option.map_map]
      rfl
  | @decomposeBy alg d p q x x' y y' X F halg hpq hp hq hd _ _ _ =>
    obtain ⟨P, ep, HP⟩ := h.perm hp
    obtain ⟨Q, eq, HQ⟩ := h.perm hq
    obtain ⟨-, -, hn'⟩ := hs _ _ hd
    obtain ⟨A, e, H⟩ := h.1.packed hd
    have hlen : A.nrows ≤ P.length ∧ A.ncols ≤ Q.length := by rw [H.dm.nrows_eq, H.dm.ncols_eq, HP.1, HQ.1]; exact ⟨le_rfl, le_rfl⟩
    rcases halg with rfl | rfl
    · simp only [Chk.pcall, M4rie.pcall, e, ep, eq]
      unfold pleTop putPleP
      rw [need_eq hlen, Option.bind_some, Chk.pleNaive_eq dbg H.dm hn', Option.bind_some]; rfl
    · simp only [Chk.pcall, M4rie.pcall, e, ep, eq]
      unfold pleTop putPleP
      rw [need_eq hlen, Option.bind_some, Chk.pleNj_eq dbg hlib.cb H.dm hn', Option.bind_some]; rfl
  | @pluq d p q x x' y y' X F hpq hp hq hd _ _ _ =>
    obtain ⟨P, ep, HP⟩ := h.perm hp
    obtain ⟨Q, eq, HQ⟩ := h.perm hq
    obtain ⟨-, -, hn'⟩ := hs _ _ hd
    obtain ⟨A, e, H⟩ := h.1.sliced hd
    obtain ⟨Z, rfl, h1, h2, -⟩ := H.sd
    simp only [Chk.pcall, M4rie.pcall, e, ep, eq]
    unfold slicePluqTop mzdSlicePluqTop? putPleS
    have l1 : P.length = Z.spack.nrows := HP.1.trans h1.symm
    have l2 : Q.length = Z.spack.ncols := HQ.1.trans h2.symm
    rw [assert_eq l1, Option.bind_some, assert_eq l2, Option.bind_some, if_pos ⟨l1, l2⟩,
      Chk.slicePluq_eq dbg (env := pleEnvOf pl.pleEnv.cb pl.pleEnv.compress Z.spack.ff pl.l2 _) hlib.compress hlib.cb Z P Q (by rw [h2]; exact hn') (by rw [h1, HP.1]) (by rw [h2, HQ.1]), Option.map_map, Option.map_map]
    rfl
  | rowAdd i j hd =>
    obtain ⟨A, e, H⟩ := h.1.packed hd
    simp only [Chk.pcall, M4rie.pcall, e]
    rw [rowAdd_eq H.dm (hs _ _ hd).2.1 i.2 j.2]; rfl
  | copyRow i j hd ha =>
    obtain ⟨A, e, H⟩ := h.1.packed hd
    obtain ⟨B, e', H'⟩ := h.1.packed ha
    simp only [Chk.pcall, M4rie.pcall, e, e']
    rw [copyRow_eq H.dm H'.dm (hs _ _ hd).2.1 i.2 j.2]; rfl
  | firstZeroRow ha _ _ _ =>
    obtain ⟨A, e, H⟩ := h.1.packed ha
    simp only [Chk.pcall, M4rie.pcall, e]
    rw [firstZeroRow_eq H.dm (hs _ _ ha).2.1]; rfl
  | addmulScalar x hd ha hda =>
    obtain ⟨A, e, H⟩ := h.1.sliced hd
    obtain ⟨B, e', H'⟩ := h.1.sliced ha
    simp only [Chk.pcall, M4rie.pcall, e, e']
    rw [(sliceAddmulScalar_eqv dbg H.sd H'.sd x).1]

/-- the permutations stay ascending -/
theorem ascending_step {bad : Nat → Nat → Prop} {w : Nat} (hasc : Ascending s) {op : POp (Elem pl.ff)} {out : Out (Elem pl.ff)} {s' : PState (Elem pl.ff)}
    (hop : PAllowed bad w s op out s') : Ascending s' := by
  have set : ∀ {t : PState (Elem pl.ff)} (_ : Ascending t) (p : Nat) (x : APerm) (_ : ∀ i, i ≤ x.arr i), Ascending (t.setPerm p (some x)) := by
    intro t ht p x hx q y hq i
    unfold PState.setPerm at hq
    by_cases e : q = p
    · simp only [e, if_true] at hq
      cases hq
      exact hx i
    · simp only [e, if_false] at hq
      exact ht q y hq i
  have at_up : ∀ (x : APerm), (∀ i, i < x.n → i ≤ x.at i) → ∀ i, i ≤ x.arr i := by
    intro x hx i
    have := hx i i.2
    unfold APerm.at at this
    rw [dif_pos i.2] at this
    exact this
  cases hop with
  | permInit p n hp => exact set hasc p _ fun i => le_rfl
  | permFree p hp =>
    intro q y hq i
    unfold PState.setPerm at hq
    by_cases e : q = p
    · simp only [e, if_true] at hq
      cases hq
    · simp only [e, if_false] at hq
      exact hasc q y hq i
  | decompose hpq hp hq hd e1 e2 hP =>
    refine set (set (t := s.setMat _ _) hasc _ _ (at_up _ fun i hi => ?_)) _ _ (at_up _ fun i hi => ?_)
    · exact (hP.perm i (e1 ▸ hi)).1
    · exact (hP.piv i (e2 ▸ hi)).1
  | decomposeBy halg hpq hp hq hd e1 e2 hP =>
    refine set (set (t := s.setMat _ _) hasc _ _ (at_up _ fun i hi => ?_)) _ _ (at_up _ fun i hi => ?_)
    · exact (hP.perm i (e1 ▸ hi)).1
    · exact (hP.piv i (e2 ▸ hi)).1
  | pluq hpq hp hq hd e1 e2 hP =>
    refine set (set (t := s.setMat _ _) hasc _ _ (at_up _ fun i hi => ?_)) _ _ (at_up _ fun i hi => ?_)
    · exact (hP.perm i (e1 ▸ hi)).1
    · exact (hP.piv i (e2 ▸ hi)).1
  | _ => exact hasc

/-- **C66** one permitted call: it succeeds with every access checked, what it returns and leaves behind is permitted by the specification, and it is what
the program without the checks does. -/
theorem C66_step (dbg : Bool) (hlib : PLibOk pl) (hmed : ∀ m n, pl.medium m n = decide (m * n * bitsOf pl ≤ 2 * (pl.l2 * 4))) (h : PStores pl c s)
    (hasc : Ascending s) (hs : Sized (bitsOf pl) s.mat) {op : POp (Elem pl.ff)} (hfit : POpFits (bitsOf pl) s op)
    (hop : ∃ out s', PAllowed (badScalar pl.toLib) (bitsOf pl) s op out s')
    (hs' : ∀ out s', PAllowed (badScalar pl.toLib) (bitsOf pl) s op out s' → Sized (bitsOf pl) s'.mat) :
    ∃ c' out s', Chk.pcall dbg pl c op = some (c', out) ∧ pcall pl c op = some (c', out) ∧
      PAllowed (badScalar pl.toLib) (bitsOf pl) s op out s' ∧ PStores pl c' s' ∧ Ascending s' := by
  obtain ⟨c', out, s', e, a, g, -⟩ := C65_step hlib h hop
  exact ⟨c', out, s', (C66_agree dbg hlib hmed h hasc hs hfit a (hs' _ _ a)).trans e, e, a, g, ascending_step hasc a⟩

theorem psafeFit_sized {bad : Nat → Nat → Prop} {w : Nat} : ∀ {ops : List (POp (Elem pl.ff))} {t : PState (Elem pl.ff)}, PSafeFit bad w t ops → Sized w t.mat
  | [], _, h => h
  | _ :: _, _, h => h.1

/-- **C66** no program that the specification permits, on matrices that are not too large, triggers undefined behaviour or a failed assertion: it runs to
its end with every access, every shift, every `int`, every contract of M4RI and every assertion checked, and does exactly what it does without. -/
theorem C66_history (dbg : Bool) (hlib : PLibOk pl) (hmed : ∀ m n, pl.medium m n = decide (m * n * bitsOf pl ≤ 2 * (pl.l2 * 4))) :
    ∀ (ops : List (POp (Elem pl.ff))) {c : PPool} {s : PState (Elem pl.ff)}, PStores pl c s → Ascending s →
      PSafeFit (badScalar pl.toLib) (bitsOf pl) s ops →
      ∃ c' outs s', Chk.prunProgram dbg pl c ops = some (c', outs) ∧ prunProgram pl c ops = some (c', outs) ∧
        PRuns (badScalar pl.toLib) (bitsOf pl) s ops outs s' ∧ PStores pl c' s' := by
  intro ops
  induction ops with
  | nil => intro c s h _ _; exact ⟨c, [], s, rfl, rfl, .nil s, h⟩
  | cons op ops ih =>
    intro c s h hasc hs
    obtain ⟨c1, out, s1, e1, e1', h1, g1, a1⟩ := C66_step dbg hlib hmed h hasc hs.1 hs.2.1 hs.2.2.1 fun out s' a => psafeFit_sized (hs.2.2.2 out s' a)
    obtain ⟨c2, outs, s2, e2, e2', h2, g2⟩ := ih g1 a1 (hs.2.2.2 out s1 h1)
    exact ⟨c2, out :: outs, s2, by simp only [Chk.prunProgram, e1, Option.bind_some, e2, Option.map_some],
      by simp only [prunProgram, e1', Option.bind_some, e2', Option.map_some], .cons h1 h2, g2⟩

/-- **C66** the checks notice a violation: writing an entry into a row that the matrix does not have is refused, in both representations. -/
theorem C66_violation_row (dbg : Bool) (h : PStores pl c s) {d : Nat} {t : Bool} {m n : Nat} {X : Matrix (Fin m) (Fin n) (Elem pl.ff)}
    (hd : s.mat d = some ⟨t, m, n, X⟩) {i j : Nat} (hi : m ≤ i) (x : Elem pl.ff) : Chk.pcall dbg pl c (.base (.writeElem d i j x)) = none := by
  cases t with
  | false =>
    obtain ⟨A, e, H⟩ := h.1.packed hd
    have hn : ¬ i < A.nrows := by rw [H.2.1]; omega
    have : Chk.writeElem A i j x.1 = none := by
      unfold Chk.writeElem
      cases Chk.int? (A.w * j) with
      | none => rfl
      | some y =>
        have : Chk.clearBits A i y A.w = none := by
          unfold Chk.clearBits Chk.ld
          cases Chk.shr ffff (64 - A.w) with
          | none => rfl
          | some v =>
            have e0 : Chk.rowOf A i = none := if_neg hn
            rw [Option.bind_some, e0]; rfl
        rw [Option.bind_some, this]; rfl
    simp only [Chk.pcall, Chk.call, e, this]; rfl
  | true =>
    obtain ⟨A, e, H⟩ := h.1.sliced hd
    have hn : ¬ i < A.nrows := by rw [H.2.1]; omega
    have : Chk.sliceWriteElem A i j x.1 = none := by
      unfold Chk.sliceWriteElem Chk.need
      rw [if_neg (fun hh => hn hh.1)]; rfl
    simp only [Chk.pcall, Chk.call, e, this]; rfl

end perms

/-- a library over a field with the standard Gray codes and environments, and the crossover of echelonform.c:29 -/
noncomputable def sizedPLib (ff : Gf2e) : PLib :=
  { stdPLib ff with medium := fun m n => decide (m * n * degreeToW ff.degree ≤ 2 * ((1 <<< 20) * 4)) }

instance (ff : Gf2e) [h : IsField ff] : IsField (sizedPLib ff).ff := h

theorem sizedPLib_ok (ff : Gf2e) [IsField ff] : PLibOk (sizedPLib ff) :=
  { mul := (stdLib_ok ff).mul, compress := (stdLib_ok ff).compress, cb := (stdLib_ok ff).cb, blm := stdBlmEnv_ok, fuel := le_rfl }

theorem sizedPLib_medium (ff : Gf2e) (m n : Nat) : (sizedPLib ff).medium m n = decide (m * n * bitsOf (sizedPLib ff) ≤ 2 * ((sizedPLib ff).l2 * 4)) := rfl

theorem sized_set {K : Type} {w : Nat} {s : AState K} (h : Sized w s) (d : Nat) {X : AMat K} (hX : X.m < 2 ^ 31 ∧ 0 < X.n ∧ w * X.n < 2 ^ 31) :
    Sized w (s.set d (some X)) := by
  intro k Y e
  unfold AState.set at e
  by_cases hk : k = d
  · rw [if_pos hk] at e; cases e; exact hX
  · rw [if_neg hk] at e; exact h k Y e

-- start with nothing: two permutations, a sliced 2 x 3 matrix with one entry set, decompose it, permute its rows back
example : ∃ ff, ∃ _ : IsField ff, ff.degree = 8 ∧ PLibOk (sizedPLib ff) ∧ PStores (sizedPLib ff) ⟨fun _ => none, fun _ => none⟩ ⟨fun _ => none, fun _ => none⟩ ∧
    Ascending (K := Elem ff) ⟨fun _ => none, fun _ => none⟩ ∧
    PSafeFit (badScalar (sizedPLib ff).toLib) (bitsOf (sizedPLib ff)) ⟨fun _ => none, fun _ => none⟩
      [.permInit 0 2, .permInit 1 3, .base (.init true 0 2 3), .base (.writeElem 0 1 2 (1 : Elem ff)), .decompose 0 0 1, .applyLeftTrans 0 0] := by
  obtain ⟨ff, h, hd⟩ := exists_aes
  have h0 : PStores (sizedPLib ff) ⟨fun _ => none, fun _ => none⟩ ⟨fun _ => none, fun _ => none⟩ := ⟨fun _ => trivial, fun _ => trivial⟩
  have hb : bitsOf (sizedPLib ff) = 8 := by unfold bitsOf; show degreeToW ff.degree = 8; rw [hd]; rfl
  have z : Sized (K := Elem ff) (bitsOf (sizedPLib ff)) fun _ => none := fun _ _ e => by cases e
  have z3 : ∀ (X : Matrix (Fin 2) (Fin 3) (Elem ff)) (s : AState (Elem ff)), Sized (bitsOf (sizedPLib ff)) s →
      Sized (bitsOf (sizedPLib ff)) (s.set 0 (some ⟨true, 2, 3, X⟩)) := fun X s hs => sized_set hs 0 (by rw [hb]; exact (by decide : 2 < 2 ^ 31 ∧ 0 < 3 ∧ 8 * 3 < 2 ^ 31))
  have ha : Ascending (K := Elem ff) ⟨fun _ => none, fun _ => none⟩ := fun _ _ e => nomatch e
  refine ⟨ff, h, hd, sizedPLib_ok ff, h0, ha, ?_⟩
  refine ⟨z, trivial, ⟨_, _, .permInit 0 2 rfl⟩, fun out s' e => ?_⟩
  cases e with
  | permInit =>
  refine ⟨z, trivial, ⟨_, _, .permInit 1 3 rfl⟩, fun out s' e => ?_⟩
  cases e with
  | permInit =>
  refine ⟨z, trivial, ⟨_, _, .base (.init true 0 2 3 rfl)⟩, fun out s' e => ?_⟩
  cases e with
  | base e =>
  cases e with
  | init =>
  refine ⟨z3 _ _ z, trivial, ⟨_, _, .base (.writeElem (t := true) (X := 0) (1 : Fin 2) (2 : Fin 3) (1 : Elem ff) rfl)⟩, fun out s' e => ?_⟩
  cases e with
  | base e =>
  obtain ⟨-, rfl⟩ := allowed_unique e (.writeElem (t := true) (X := 0) (1 : Fin 2) (2 : Fin 3) (1 : Elem ff) rfl) rfl (by simp)
  generalize hs : (fun (a : Fin 2) (b : Fin 3) => if a = 1 ∧ b = 2 then (1 : Elem ff) else (0 : Matrix (Fin 2) (Fin 3) (Elem ff)) a b) = X
  clear e
  refine ⟨z3 _ _ (z3 _ _ z), trivial, ?_, fun out s' e => ?_⟩
  · refine exists_ple (pl := sizedPLib ff) (x := ⟨2, id⟩) (y := ⟨3, id⟩) (t := true) (X := X) (sizedPLib_ok ff)
      (c := ⟨fun k => if k = 0 then some (.sliced (Mat.spack (ff := ff) ⟨2, 3, 0, ofFin X⟩)) else none,
        fun k => if k = 1 then some (mzpInit 3) else if k = 0 then some (mzpInit 2) else none⟩) ⟨fun k => ?_, fun k => ?_⟩ (by decide) rfl rfl rfl
    · by_cases hk : k = 0
      · subst hk
        exact (⟨rfl, rfl, rfl, _, spack_rep (ff := ff) _, fun i j => dif_pos (And.intro i.2 j.2)⟩ : HoldsS (stdLib ff) (Mat.spack (ff := ff) ⟨2, 3, 0, ofFin X⟩) X)
      · simp only [AState.set, PState.setPerm, hk, if_false]
    · by_cases hk1 : k = 1
      · subst hk1; exact ⟨rfl, fun _ => rfl⟩
      · by_cases hk : k = 0
        · subst hk; exact ⟨rfl, fun _ => rfl⟩
        · simp only [PState.setPerm, hk1, hk, if_false]
  · obtain ⟨x', y', F, hx, -, -, -, rfl⟩ := decompose_inv (pl := sizedPLib ff) (t := true) (x := ⟨2, id⟩) (y := ⟨3, id⟩) (X := X) (by rfl) (by rfl) (by rfl) e
    obtain ⟨m, arr⟩ := x'
    dsimp only at hx
    subst hx
    have z5 := z3 F _ (z3 X _ (z3 0 _ z))
    refine ⟨z5, trivial, ⟨_, _, .applyLeftTrans (t := true) (x := ⟨2, arr⟩) (X := F) rfl rfl⟩, fun _ _ e => ?_⟩
    generalize hst : PState.setPerm _ 1 _ = st at e
    have z5' : Sized (bitsOf (sizedPLib ff)) st.mat := by rw [← hst]; exact z5
    cases e with
    | applyLeftTrans hp hd => have hz := z5' 0 _ hd; exact sized_set z5' 0 hz

end M4rie.Props
