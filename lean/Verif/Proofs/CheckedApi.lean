import Verif.Model.CheckedApi
import Verif.Proofs.CheckedPle

/-! The checked functions of `Verif.Model.CheckedApi` are defined and do what the total ones do. -/

namespace M4rie.Chk
open M4rie M4rie.Spec

variable {ff : Gf2e} [IsField ff] {m n k l fid : Nat} {A B C : Mzed} {S T U : Slice}

theorem Dm.bits_pos (h : Dm ff m n fid A) (hn : 0 < n) : 0 < A.bitCols := by
  rw [h.bitCols_eq]; exact Nat.mul_pos (okW_ff (ff := ff)).pos hn

theorem copy_eq (hC : Dm ff m n fid C) (hA : Dm ff m n fid A) : copy C A = mzedCopy? C A := by
  unfold copy mzedCopy?
  rw [need_eq ⟨by rw [hA.nrows_eq, hC.nrows_eq], by rw [hA.bitCols_eq, hC.bitCols_eq]⟩]
  rfl

theorem add_eq (hC : Dm ff m n fid C) (hA : Dm ff m n fid A) (hB : Dm ff m n fid B) : add C A B = mzedAdd? C A B := by
  unfold add mzedAdd?
  rw [(addRaw_eq hC hA hB).1]
  rfl

theorem copyRow_eq (hB : Dm ff m n fid B) (hA : Dm ff k n fid A) (hn : 0 < n) {i j : Nat} (hi : i < m) (hj : j < k) :
    copyRow B i A j = some (mzedCopyRow B i A j) := by
  unfold copyRow
  rw [need_eq ⟨by rw [hB.nrows_eq]; exact hi, by rw [hA.nrows_eq]; exact hj, by rw [hA.bitCols_eq, hB.bitCols_eq], hA.bits_pos hn⟩, Option.bind_some]

theorem Dm.colSwapAll (h : Dm ff m n fid A) (hs : Sm ff n) {a b : Nat} (ha : a < n) (hb : b < n) :
    Chk.colSwap A a b = some (mzedColSwap A a b) ∧ Dm ff m n fid (mzedColSwap A a b) := by
  refine ⟨?_, ?_⟩
  · unfold Chk.colSwap mzedColSwap
    refine (forC_eq (fun (_ : Nat) (M : Mzed) => M.w = A.w ∧ M.nrows = A.nrows ∧ M.bitCols = A.bitCols) _ _ A.w A ⟨rfl, rfl, rfl⟩ ?_).1
    rintro i M hi ⟨h1, h2, h3⟩
    have hm : ∀ c, c < n → A.w * c + i < A.bitCols := by
      intro c hc
      rw [h.w_eq] at hi ⊢
      rw [h.bitCols_eq]
      calc _ < degreeToW ff.degree * c + degreeToW ff.degree := by omega
        _ = degreeToW ff.degree * (c + 1) := by ring
        _ ≤ _ := Nat.mul_le_mul_left _ hc
    have hA31 : A.bitCols < 2 ^ 31 := by rw [h.bitCols_eq]; exact hs
    have e1 := hm a ha
    have e2 := hm b hb
    dsimp only
    rw [h1, int_eq (lt_trans e1 hA31), Option.bind_some, int_eq (lt_trans e2 hA31), Option.bind_some, need_eq ⟨by rw [h3]; exact e1, by rw [h3]; exact e2⟩,
      Option.bind_some]
    refine ⟨?_, rfl, h2, ?_⟩
    · cases M; subst h1; rfl
    · rw [← h3]; unfold Mzed.bitCols; dsimp only; rw [h1]
  · obtain ⟨X, rfl, rfl, rfl, rfl⟩ := h
    exact ⟨_, swapCols_pack X a b, rfl, rfl, rfl⟩

theorem rowAdd_eq (h : Dm ff m n fid A) (hn : 0 < n) {a b : Nat} (ha : a < m) (hb : b < m) : rowAdd A a b = some (mzedRowAdd A a b) := by
  unfold rowAdd
  rw [need_eq ⟨by rw [h.nrows_eq]; exact ha, by rw [h.nrows_eq]; exact hb, h.bits_pos hn⟩, Option.bind_some]

theorem isZero_eq (h : Dm ff m n fid A) (hn : 0 < n) : isZero A = some (mzedIsZero A) := by
  unfold isZero; rw [need_eq (h.bits_pos hn), Option.bind_some]

theorem equal_eq (h : Dm ff m n fid A) (h' : Dm ff m n fid B) (hn : 0 < n) : equal A B = some (mzedEq A B) := by
  unfold equal; rw [need_eq ⟨h.bits_pos hn, h'.bits_pos hn⟩, Option.bind_some]

theorem firstZeroRow_eq (h : Dm ff m n fid A) (hn : 0 < n) : firstZeroRow A = some (mzedFirstZeroRow A) := by
  unfold firstZeroRow; rw [need_eq (h.bits_pos hn), Option.bind_some]

omit [IsField ff] in
theorem sm_int (hw : 0 < degreeToW ff.degree) (hs : Sm ff n) : n < 2 ^ 31 := lt_of_le_of_lt (Nat.le_mul_of_pos_left _ hw) hs

theorem concat_eq {n' : Nat} (hA : Dm ff m n fid A) (hB : Dm ff m n' fid B) (hs : Sm ff (n + n')) :
    concat A B = some (mzedConcat A B) ∧ Dm ff m (n + n') fid (mzedConcat A B) := by
  refine ⟨?_, ?_⟩
  · unfold concat
    rw [hA.ncols_eq, hB.ncols_eq, int_eq (sm_int (okW_ff (ff := ff)).pos hs), Option.bind_some, hA.ff_eq, (init_dm hs).1, Option.bind_some, need_eq, Option.bind_some]
    · unfold mzedConcat; rw [hA.ncols_eq, hB.ncols_eq, hA.ff_eq]
    · refine ⟨by rw [hA.nrows_eq, hB.nrows_eq], rfl, ?_⟩
      rw [(init_dm hs).2.bitCols_eq, hA.bitCols_eq, hB.bitCols_eq, Nat.mul_add]
  · obtain ⟨X, rfl, rfl, rfl, rfl⟩ := hA
    obtain ⟨Y, rfl, e1, e2, e3⟩ := hB
    subst e2
    exact rep_dm (Props.C43_concat (pack_rep X) (pack_rep Y)).2.2

theorem stack_eq {m' : Nat} (hA : Dm ff m n fid A) (hB : Dm ff m' n fid B) (hs : Sm ff n) (hm : m + m' < 2 ^ 31) : stack A B = some (mzedStack A B) := by
  unfold stack
  rw [hA.nrows_eq, hB.nrows_eq, int_eq hm, Option.bind_some, hA.ff_eq, hA.ncols_eq, (init_dm hs).1, Option.bind_some, need_eq, Option.bind_some]
  · unfold mzedStack; rw [hA.nrows_eq, hB.nrows_eq, hA.ff_eq, hA.ncols_eq]
  · exact ⟨by rw [hA.bitCols_eq, hB.bitCols_eq], rfl, by rw [(init_dm hs).2.bitCols_eq, hA.bitCols_eq]⟩

theorem submatrix_eq (hA : Dm ff m n fid A) (hs : Sm ff n) {lr lc hr hc : Nat} (h1 : lr ≤ hr) (h2 : hr ≤ m) (h3 : lc ≤ hc) (h4 : hc ≤ n) :
    submatrix A lr lc hr hc = some (mzedSubmatrix A lr lc hr hc) := by
  unfold submatrix
  have hsub : Sm ff (hc - lc) := hs.mono (by omega)
  rw [need_eq ⟨h1, h3⟩, Option.bind_some, hA.ff_eq, (init_dm hsub).1, Option.bind_some, hA.w_eq, int_eq (by rw [Nat.mul_comm]; exact hs.mono (h3.trans h4)), Option.bind_some,
    int_eq (by rw [Nat.mul_comm]; exact hs.mono h4), Option.bind_some, need_eq, Option.bind_some]
  · unfold mzedSubmatrix; rw [hA.w_eq, hA.ff_eq]
  · refine ⟨by rw [hA.nrows_eq]; exact h2, by rw [hA.bitCols_eq, Nat.mul_comm]; exact Nat.mul_le_mul_left _ h4, le_rfl, ?_⟩
    rw [(init_dm hsub).2.bitCols_eq, Nat.mul_sub, Nat.mul_comm, Nat.mul_comm lc]

theorem mulNaiveTop_eq (clear : Bool) (hC : Dm ff m n fid C) (hA : Dm ff m k fid A) (hB : Dm ff k n fid B) (hs : Sm ff n) (hk : Sm ff k) :
    mulNaiveTop clear C A B = (mzedMulInit? C A B clear).map fun C => mzedMulNaiveAcc C A B := by
  unfold mulNaiveTop
  obtain ⟨e, h⟩ := mulInit_eqv (A := A) (B := B) clear hC hs
  rw [e]
  cases hc : mzedMulInit? C A B clear with
  | none => rfl
  | some D => rw [Option.bind_some, (mulNaive_eq (h D hc) hA hB hs hk).1]; rfl

theorem mulNjTop_eq (dbg : Bool) {cb : Codebook} (hcb : cb.Ok ff.degree) (bs : Nat) (clear : Bool) (hC : Dm ff m n fid C) (hA : Dm ff m k fid A) (hB : Dm ff k n fid B)
    (hs : Sm ff n) (hk : Sm ff k) (hn : 0 < n) :
    mulNewtonJohnTop dbg cb bs clear C A B = (mzedMulInit? C A B clear).map fun C => mzedMulNewtonJohnAcc cb bs C A B := by
  unfold mulNewtonJohnTop
  obtain ⟨e, h⟩ := mulInit_eqv (A := A) (B := B) clear hC hs
  rw [e]
  cases hc : mzedMulInit? C A B clear with
  | none => rfl
  | some D => rw [Option.bind_some, mulNewtonJohn_eq dbg hcb bs (h D hc) hA hB hs hk hn]; rfl

theorem mulKaraTop_eq (dbg clear : Bool) (hC : Dm ff m n fid C) (hA : Dm ff m k fid A) (hB : Dm ff k n fid B) (hs : Sm ff n) :
    mulKaratsubaTop dbg clear C A B = (mzedMulInit? C A B clear).bind fun C => mzedAddmulKara? C A B := by
  unfold mulKaratsubaTop
  obtain ⟨e, h⟩ := mulInit_eqv (A := A) (B := B) clear hC hs
  rw [e]
  cases hc : mzedMulInit? C A B clear with
  | none => rw [Option.bind_none, Option.bind_none]
  | some D => rw [Option.bind_some, Option.bind_some, (addmulKara_eqv dbg hs D A B (h D hc) hA hB).1]

/-! ### permutations -/

variable {P : Mzp}

theorem applyPLeft_eq (hA : Dm ff m n fid A) (hP : ∀ i, i < m → i ≤ P.val i ∧ P.val i < m) :
    applyPLeft A P = some (mzedApplyPLeft A P) ∧ applyPLeftTrans A P = some (mzedApplyPLeftTrans A P) := by
  unfold applyPLeft applyPLeftTrans
  rw [hA.nrows_eq, need_eq (show permOk P (min P.length m) m from fun i hi => hP i (by omega)), Option.bind_some, Option.bind_some]
  exact ⟨rfl, rfl⟩

theorem pget_eq {i : Nat} (h : i < P.length) : pget P i = some (P.val i) := if_pos h

theorem applyPRight_eq (hA : Dm ff m n fid A) (hs : Sm ff n) (hP : ∀ i, i < n → P.val i < n) :
    applyPRight A P = some (mzedApplyPRight A P) ∧ applyPRightTrans A P = some (mzedApplyPRightTrans A P) := by
  unfold applyPRight applyPRightTrans mzedApplyPRight mzedApplyPRightTrans
  by_cases h0 : A.nrows = 0
  · rw [if_pos h0, if_pos h0, if_pos h0, if_pos h0]; exact ⟨rfl, rfl⟩
  · rw [if_neg h0, if_neg h0, if_neg h0, if_neg h0]
    dsimp only
    rw [hA.ncols_eq]
    refine ⟨?_, ?_⟩
    · refine (forC_eq (fun _ A => Dm ff m n fid A) _ _ (min P.length n) A hA fun t A ht hA => ?_).1
      rw [pget_eq (by omega), Option.bind_some]
      exact hA.colSwapAll hs (by omega) (hP _ (by omega))
    · refine (forC_eq (fun _ A => Dm ff m n fid A) _ _ (min P.length n) A hA fun t A ht hA => ?_).1
      rw [pget_eq (by omega), Option.bind_some]
      exact hA.colSwapAll hs (by omega) (hP _ (by omega))

/-! ### inversion -/

theorem invert_eq (dbg : Bool) {cb : Codebook} (hcb : cb.Ok ff.degree) (optK : Nat) (small : Bool) (hA : Dm ff n n fid A) (hs : Sm ff (n + n)) (hn : 0 < n) :
    invert dbg cb optK small A = mzedInvertNewtonJohn? cb optK small A := by
  have hs1 : Sm ff n := hs.mono (by omega)
  unfold invert mzedInvertNewtonJohn?
  dsimp only
  rw [assert_eq (by rw [hA.nrows_eq, hA.ncols_eq]), Option.bind_some, hA.nrows_eq, hA.ncols_eq, hA.ff_eq, (init_dm hs1).1, Option.bind_some]
  obtain ⟨e1, hI⟩ := setUi_eq (init_dm (fid := A.fid) (m := n) hs1).2 hs1 (1 : Elem ff)
  rw [show (1#64 : Word) = (1 : Elem ff).1 from rfl, e1, Option.bind_some]
  obtain ⟨e2, hT⟩ := concat_eq hA (by rw [hA.fid_eq] at hI; exact hI) hs
  rw [hA.fid_eq] at hI ⊢
  rw [e2, Option.bind_some, echelonizeNj_eq dbg hcb optK small true hT hs, Option.bind_some]
  have hE : Dm ff n (n + n) fid (mzedEchelonizeNewtonJohn cb optK small (mzedConcat A (mzedSetUi (mzedInit ff fid n n) (1 : Elem ff).1)) true).1 := by
    obtain ⟨Y, eY, y1, y2, y3⟩ := hT
    rw [eY]
    obtain ⟨Z, r, piv, h1, h2, -⟩ := echelonizeNj_inv hcb optK small Y true
    rw [h1]
    exact ⟨Z, rfl, h2.nrows.trans y1, h2.ncols.trans y2, h2.fid.trans y3⟩
  obtain ⟨e3, hJ⟩ := hE.window hs (lr := 0) (lc := 0) (hr := n) (hc := n) rfl (by omega) (by omega) (by omega) (by omega) (a := n) (b := n) (by omega) (by omega)
  rw [e3, Option.bind_some, equal_eq hI hJ hn, Option.bind_some, submatrix_eq hE hs (by omega) (by omega) (by rw [hE.ncols_eq]; omega) (by rw [hE.ncols_eq])]

/-! ### sliced -/

theorem onPlanes_eq {f : Nat → Pl → Option Pl} {g : Nat → (Nat → Nat → Word) → Nat → Nat → Word} (hS : Sd ff m n fid S)
    (h : ∀ k w, k < ff.degree → f k ⟨m, n, w⟩ = some ⟨m, n, g k w⟩) :
    ∀ d, d ≤ ff.degree → onPlanes S d f = some { S with x := fun k => if k < d then g k (S.x k) else S.x k } := by
  intro d hd
  unfold onPlanes
  rw [hS.arr_eq]
  suffices H : ∀ d, d ≤ ff.degree → forC (fun k X => (Arr.get X k).bind fun p => (f k p).bind fun p => Arr.put X k p) d ⟨ff.degree, m, n, S.x⟩ =
      some ⟨ff.degree, m, n, fun k => if k < d then g k (S.x k) else S.x k⟩ by rw [H d hd]; rfl
  intro d
  induction d with
  | zero => intro _; rfl
  | succ d ih =>
    intro hd
    show (forC _ d _).bind _ = _
    rw [ih (by omega), Option.bind_some]
    dsimp only
    rw [get_eq _ (by omega), Option.bind_some, h d _ (by omega), Option.bind_some, put_eq _ _ (by omega)]
    congr 2
    funext k
    unfold setSlice
    by_cases hk : k = d
    · subst hk; rw [if_pos rfl, if_pos (Nat.lt_succ_self k), if_neg (Nat.lt_irrefl k)]
    · rw [if_neg hk]
      dsimp only
      by_cases h2 : k < d
      · rw [if_pos h2, if_pos (by omega)]
      · rw [if_neg h2, if_neg (by omega)]

theorem sliceInit_eq : sliceInit ff fid m n = some (mzdSliceInit ff fid m n) := by
  unfold sliceInit; rw [need_eq deg_le, Option.bind_some]

theorem sliceSetUi_eq (hS : Sd ff m n fid S) (x : Word) : sliceSetUi S x = some (mzdSliceSetUi S x) := by
  obtain ⟨X, rfl, rfl, rfl, rfl⟩ := hS
  have hS : Sd ff X.nrows X.ncols X.fid X.spack := ⟨X, rfl, rfl, rfl, rfl⟩
  unfold sliceSetUi mzdSliceSetUi
  refine onPlanes_eq hS (g := fun k w => mzdSetUi X.nrows X.ncols w (x.getLsbD k)) (fun k w hk => ?_) _ le_rfl
  rw [shr_eq (lt_of_lt_of_le hk (le_trans deg_le (by omega))), Option.bind_some, BitVec.getLsbD_ushiftRight, Nat.add_zero]

theorem forN_setSlice (g : Nat → (Nat → Nat → Word) → Nat → Nat → Word) (x : Nat → Nat → Nat → Word) :
    ∀ d, forN (fun i x => setSlice x i (g i (x i))) d x = fun k => if k < d then g k (x k) else x k
  | 0 => rfl
  | d + 1 => by
    show setSlice (forN _ d x) d _ = _
    rw [forN_setSlice g x d]
    funext k
    unfold setSlice
    by_cases hk : k = d
    · subst hk; rw [if_pos rfl, if_pos (Nat.lt_succ_self k)]; dsimp only; rw [if_neg (Nat.lt_irrefl k)]
    · rw [if_neg hk]
      dsimp only
      by_cases h2 : k < d
      · rw [if_pos h2, if_pos (by omega)]
      · rw [if_neg h2, if_neg (by omega)]

theorem sliceAddElem_eq (hS : Sd ff m n fid S) {i j : Nat} (hi : i < m) (hj : j < n) (x : Word) : sliceAddElem S i j x = some (mzdSliceAddElem S i j x) := by
  obtain ⟨X, rfl, rfl, rfl, rfl⟩ := hS
  have hS : Sd ff X.nrows X.ncols X.fid X.spack := ⟨X, rfl, rfl, rfl, rfl⟩
  unfold sliceAddElem mzdSliceAddElem
  rw [forN_setSlice (fun k w => mzdXorBits w i j ((x >>> k) &&& 1#64))]
  refine onPlanes_eq hS (g := fun k w => mzdXorBits w i j ((x >>> k) &&& 1#64)) (fun k w hk => ?_) _ le_rfl
  rw [need_eq ⟨hi, hj⟩, Option.bind_some]

theorem sliceRowSwap_eq (hS : Sd ff m n fid S) {i j : Nat} (hi : i < m) (hj : j < m) : sliceRowSwap S i j = some (mzdSliceRowSwap S i j) := by
  obtain ⟨X, rfl, rfl, rfl, rfl⟩ := hS
  have hS : Sd ff X.nrows X.ncols X.fid X.spack := ⟨X, rfl, rfl, rfl, rfl⟩
  unfold sliceRowSwap mzdSliceRowSwap
  refine onPlanes_eq hS (g := fun _ w => mzdRowSwap X.ncols w i j) (fun k w hk => ?_) _ le_rfl
  rw [need_eq ⟨hi, hj⟩, Option.bind_some]

theorem sliceColSwap_eq (hS : Sd ff m n fid S) {i j : Nat} (hi : i < n) (hj : j < n) : sliceColSwap S i j = some (mzdSliceColSwap S i j) := by
  obtain ⟨X, rfl, rfl, rfl, rfl⟩ := hS
  have hS : Sd ff X.nrows X.ncols X.fid X.spack := ⟨X, rfl, rfl, rfl, rfl⟩
  unfold sliceColSwap mzdSliceColSwap
  refine onPlanes_eq hS (g := fun _ w => mzdColSwap X.nrows w i j) (fun k w hk => ?_) _ le_rfl
  rw [need_eq ⟨hi, hj⟩, Option.bind_some]

theorem sliceApplyPLeftTrans_eq (hS : Sd ff m n fid S) (hP : ∀ i, i < m → i ≤ P.val i ∧ P.val i < m) :
    sliceApplyPLeftTrans S P = some (mzdSliceApplyPLeftTrans S P) := by
  obtain ⟨X, rfl, rfl, rfl, rfl⟩ := hS
  have hS : Sd ff X.nrows X.ncols X.fid X.spack := ⟨X, rfl, rfl, rfl, rfl⟩
  unfold sliceApplyPLeftTrans mzdSliceApplyPLeftTrans
  refine onPlanes_eq hS (g := fun _ w => mzdApplyPLeftTrans X.nrows X.ncols w P) (fun k w hk => ?_) _ le_rfl
  dsimp only
  rw [need_eq (show permOk P (min P.length X.nrows) X.nrows from fun i hi => hP i (lt_of_lt_of_le hi (min_le_right _ _))), Option.bind_some]

theorem sliceApplyPRightTrans_eq (hS : Sd ff m n fid S) (hP : ∀ i, i < n → i ≤ P.val i ∧ P.val i < n) :
    sliceApplyPRightTrans S P = some (mzdSliceApplyPRightTrans S P) := by
  obtain ⟨X, rfl, rfl, rfl, rfl⟩ := hS
  have hS : Sd ff X.nrows X.ncols X.fid X.spack := ⟨X, rfl, rfl, rfl, rfl⟩
  unfold sliceApplyPRightTrans mzdSliceApplyPRightTrans
  refine onPlanes_eq hS (g := fun _ w => mzdApplyPRightTrans X.nrows X.ncols w P) (fun k w hk => ?_) _ le_rfl
  dsimp only
  rw [need_eq (show permOk P (min P.length X.ncols) X.ncols from fun i hi => hP i (lt_of_lt_of_le hi (min_le_right _ _))), Option.bind_some]

theorem sliceAdd_eq (hS : Sd ff m n fid S) (hT : Sd ff m n fid T) (hU : Sd ff m n fid U) : sliceAdd S T U = mzdSliceAdd? S T U := by
  unfold sliceAdd mzdSliceAdd?
  have e : (onPlanes S T.depth fun i c => ((arr T).get i).bind fun a => ((arr U).get i).bind fun b => padd c a b) =
      some { S with x := ptrAdd T.nrows T.ncols S.x T.x U.x T.depth } := by
    unfold ptrAdd
    rw [hT.depth_eq, hT.nrows_eq, hT.ncols_eq]
    refine onPlanes_eq hS (g := fun k w => mzdAdd m n w (T.x k) (U.x k)) (fun k w hk => ?_) _ le_rfl
    rw [hT.arr_eq, hU.arr_eq, get_eq _ hk, Option.bind_some, get_eq _ hk, Option.bind_some, padd_eq]
  rw [e]

theorem sliceConcat_eq {n' : Nat} (hS : Sd ff m n fid S) (hT : Sd ff m n' fid T) (hn : n + n' < 2 ^ 31) : sliceConcat S T = some (mzdSliceConcat S T) := by
  unfold sliceConcat mzdSliceConcat
  dsimp only
  rw [hS.ncols_eq, hT.ncols_eq, int_eq hn, Option.bind_some, hS.ff_eq, hS.nrows_eq, sliceInit_eq, Option.bind_some, hS.depth_eq]
  refine onPlanes_eq (sinit_sd (fid := S.fid)) (g := fun k w => mzdConcat m n n' w (S.x k) (T.x k)) (fun k w hk => ?_) _ le_rfl
  rw [hS.arr_eq, hT.arr_eq, get_eq _ hk, Option.bind_some, get_eq _ hk, Option.bind_some, need_eq ⟨rfl, rfl, rfl⟩, Option.bind_some]

theorem sliceStack_eq {m' : Nat} (hS : Sd ff m n fid S) (hT : Sd ff m' n fid T) (hm : m + m' < 2 ^ 31) : sliceStack S T = some (mzdSliceStack S T) := by
  unfold sliceStack mzdSliceStack
  dsimp only
  rw [hS.nrows_eq, hT.nrows_eq, int_eq hm, Option.bind_some, hS.ff_eq, hS.ncols_eq, sliceInit_eq, Option.bind_some, hS.depth_eq]
  refine onPlanes_eq (sinit_sd (fid := S.fid)) (g := fun k w => mzdStack m m' n w (S.x k) (T.x k)) (fun k w hk => ?_) _ le_rfl
  rw [hS.arr_eq, hT.arr_eq, get_eq _ hk, Option.bind_some, get_eq _ hk, Option.bind_some, need_eq ⟨rfl, rfl, rfl⟩, Option.bind_some]

theorem forC_all (f : Nat → Bool → Option Bool) (p : Nat → Bool) : ∀ d, (∀ k r, k < d → f k r = some (r && p k)) → forC f d true = some ((List.range d).all p)
  | 0, _ => rfl
  | d + 1, h => by
    show (forC f d true).bind _ = _
    rw [forC_all f p d fun k r hk => h k r (by omega), Option.bind_some, h d _ (by omega), List.range_succ, List.all_append]
    simp

theorem sliceIsZero_eq (hS : Sd ff m n fid S) (hn : 0 < n) : sliceIsZero S = some (mzdSliceIsZero S) := by
  unfold sliceIsZero mzdSliceIsZero
  refine forC_all _ _ _ fun k r hk => ?_
  rw [hS.depth_eq] at hk
  rw [hS.arr_eq, get_eq _ hk, Option.bind_some, need_eq hn, Option.bind_some, hS.nrows_eq, hS.ncols_eq]

theorem sliceEqual_eq (hS : Sd ff m n fid S) (hT : Sd ff m n fid T) (hn : 0 < n) : sliceEqual S T = some (mzdSliceEq S T) := by
  unfold sliceEqual mzdSliceEq
  rw [if_neg (by rw [hS.fid_eq, hT.fid_eq, hS.depth_eq, hT.depth_eq]; simp)]
  rw [forC_all _ (fun k => (S.nrows == T.nrows && S.ncols == T.ncols) && mzdEq S.nrows S.ncols (S.x k) (T.x k))]
  · rw [hS.fid_eq, hT.fid_eq, hS.depth_eq, hT.depth_eq]; simp
  · intro k r hk
    rw [hS.depth_eq] at hk
    rw [hS.arr_eq, hT.arr_eq, get_eq _ hk, Option.bind_some, get_eq _ hk, Option.bind_some, need_eq ⟨hn, hn⟩, Option.bind_some, hS.nrows_eq, hS.ncols_eq, hT.nrows_eq, hT.ncols_eq]

end M4rie.Chk
