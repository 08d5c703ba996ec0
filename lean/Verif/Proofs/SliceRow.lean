import Verif.Proofs.SliceOps

/-! Element access, row and column operations, blocks and windows of sliced matrices. -/

namespace M4rie
open M4rie.Spec Finset

variable {ff : Gf2e} [IsField ff]

theorem ebit_high {k : Nat} (h : ff.degree ≤ k) (x : Elem ff) : ebit k x = false := elem_bit_high x h

/-- an operation applied to every slice -/
theorem spack_op (A R : Mat ff) (hf : R.fid = A.fid) (hr : R.nrows = A.nrows) (hc : R.ncols = A.ncols) (op : Nat → Nat → Nat → Word)
    (h : ∀ k, k < ff.degree → ∀ i j, bitAt (op k) i j = ebit k (R.e i j)) :
    { A.spack with x := fun k => if k < ff.degree then op k else A.spack.x k } = R.spack := by
  refine spack_ext rfl hf.symm hr.symm hc.symm rfl fun k i j => ?_
  show bitAt (if k < ff.degree then op k else A.spack.x k) i j = _
  by_cases hk : k < ff.degree
  · rw [if_pos hk, h k hk]
  · rw [if_neg hk, spack_bit, ebit_high (by omega)]
    exact elem_bit_high _ (by omega)

/-- the same for a loop over the slices -/
theorem forN_slices (op : (Nat → Nat → Word) → Nat → Nat → Nat → Word) (x : Nat → Nat → Nat → Word) (n : Nat) :
    forN (fun i x => setSlice x i (op (x i) i)) n x = fun k => if k < n then op (x k) k else x k := by
  induction n with
  | zero => funext k; simp [forN]
  | succ n ih =>
    rw [forN, ih]
    funext k
    unfold setSlice
    by_cases hk : k = n
    · subst hk
      rw [if_pos rfl, if_pos (Nat.lt_succ_self k)]
      simp
    · rw [if_neg hk]
      show (if k < n then op (x k) k else x k) = _
      by_cases h2 : k < n
      · rw [if_pos h2, if_pos (by omega)]
      · rw [if_neg h2, if_neg (by omega)]

/-! ### elements -/

theorem sliceRead_spack (A : Mat ff) (i j : Nat) : mzdSliceReadElem A.spack i j = (A.e i j).1 := by
  have h16 : ff.degree ≤ 16 := (Fact.out : FFOK ff).min.e16
  unfold mzdSliceReadElem
  have key : ∀ n, n ≤ 16 → ∀ k, (forN (fun a ret => ret ||| ((if bitAt (A.spack.x a) i j then 1#64 else 0#64) <<< a)) n 0#64).getLsbD k =
      (decide (k < n) && (A.e i j).1.getLsbD k) := by
    intro n
    induction n with
    | zero => intro _ k; simp [forN]
    | succ n ih =>
      intro hn k
      rw [forN, BitVec.getLsbD_or, ih (by omega), BitVec.getLsbD_shiftLeft, spack_bit]
      by_cases hk : k = n
      · subst hk
        have : k < 64 := by omega
        cases (A.e i j).1.getLsbD k <;> simp [this]
      · by_cases h2 : k < n
        · have : k < n + 1 := by omega
          simp [h2, this]
        · have h3 : ¬ k < n + 1 := by omega
          simp only [h2, h3, decide_false, Bool.false_and, Bool.false_or, Bool.not_false, Bool.and_true]
          have : 1 ≤ k - n := by omega
          cases (A.e i j).1.getLsbD n
          · simp
          · simp; omega
  apply BitVec.eq_of_getLsbD_eq
  intro k _
  show BitVec.getLsbD (forN _ ff.degree 0#64) k = _
  rw [key _ h16]
  by_cases hk : k < ff.degree
  · simp [hk]
  · rw [elem_bit_high _ (by omega)]; simp

theorem shr_and_one (x : Word) (k : Nat) : (x >>> k) &&& 1#64 = if x.getLsbD k then 1#64 else 0#64 := by
  apply BitVec.eq_of_getLsbD_eq
  intro i hi
  rw [BitVec.getLsbD_and, BitVec.getLsbD_ushiftRight]
  by_cases h0 : i = 0
  · subst h0
    cases h : x.getLsbD k <;> simp
  · have : (1#64 : Word).getLsbD i = false := by
      rw [BitVec.getLsbD_one]; simp; omega
    cases h : x.getLsbD k <;> simp [this]

theorem bitAt_xorBit (M : Nat → Nat → Word) (r c : Nat) (b : Bool) (i j : Nat) :
    bitAt (mzdXorBits M r c (if b then 1#64 else 0#64)) i j = bitAt M i j + decide (i = r ∧ j = c) * b := by
  unfold bitAt mzdXorBits setRow setWord
  by_cases hi : i = r
  · subst hi
    simp only [if_true, true_and]
    by_cases hj : j / 64 = c / 64
    · simp only [hj, if_true]
      rw [BitVec.getLsbD_xor, BitVec.getLsbD_shiftLeft]
      refine congrArg ((M i (c / 64)).getLsbD (j % 64) + ·) ?_
      by_cases hjc : j = c
      · subst hjc
        have : j % 64 < 64 := Nat.mod_lt _ (by norm_num)
        cases b
        · simp; rfl
        · simp [this]; rfl
      · have hne : j % 64 ≠ c % 64 := by omega
        rw [decide_eq_false hjc]
        have z : (false : Bool) * b = false := zero_mul b
        rw [z]
        cases b
        · simp
        · simp only [if_true]
          by_cases hlt : j % 64 < c % 64
          · simp [hlt]
          · have : 1 ≤ j % 64 - c % 64 := by omega
            have h1 : (1#64 : Word).getLsbD (j % 64 - c % 64) = false := by
              rw [BitVec.getLsbD_one]; simp; omega
            rw [h1]; simp
    · simp only [hj, if_false]
      have : j ≠ c := fun h => hj (by rw [h])
      rw [decide_eq_false this]
      have z : (false : Bool) * b = 0 := zero_mul b
      rw [z, add_zero]
  · simp only [hi, if_false, false_and, decide_false]
    have z : (false : Bool) * b = 0 := zero_mul b
    rw [z, add_zero]

theorem sliceAddElem_spack (A : Mat ff) (r c : Nat) (x : Elem ff) : mzdSliceAddElem A.spack r c x.1 = (A.addAt r c x).spack := by
  unfold mzdSliceAddElem
  simp only [forN_slices (fun M i => mzdXorBits M r c ((x.1 >>> i) &&& 1#64))]
  refine spack_op A (A.addAt r c x) rfl rfl rfl _ fun k hk i j => ?_
  rw [shr_and_one, bitAt_xorBit, spack_bit]
  show _ = ebit k (if i = r ∧ j = c then A.e i j + x else A.e i j)
  by_cases h : i = r ∧ j = c
  · rw [if_pos h, decide_eq_true h, map_add]
    exact congrArg ((A.e i j).1.getLsbD k + ·) (one_mul _)
  · rw [if_neg h, decide_eq_false h]
    exact (congrArg ((A.e i j).1.getLsbD k + ·) (zero_mul _)).trans (add_zero _)

theorem sliceWriteElem_spack (A : Mat ff) (r c : Nat) (x : Elem ff) : mzdSliceWriteElem A.spack r c x.1 = (A.set r c x).spack := by
  unfold mzdSliceWriteElem
  simp only [forN_slices (fun M i => mzdWriteBit M r c (((x.1 >>> i) &&& 1#64) != 0#64))]
  refine spack_op A (A.set r c x) rfl rfl rfl _ fun k hk i j => ?_
  rw [shr_and_one]
  unfold mzdWriteBit
  rw [bitAt_ofBits, spack_bit]
  show _ = ebit k (if i = r ∧ j = c then x else A.e i j)
  by_cases h : i = r ∧ j = c
  · rw [if_pos h, if_pos h, ebit_apply]
    cases x.1.getLsbD k <;> rfl
  · rw [if_neg h, if_neg h, ebit_apply]

theorem sliceSetUi_spack (A : Mat ff) (x : Elem ff) : mzdSliceSetUi A.spack x.1 = (A.scalar x).spack := by
  unfold mzdSliceSetUi
  refine spack_op A (A.scalar x) rfl rfl rfl (fun k => mzdSetUi A.nrows A.ncols (A.spack.x k) (x.1.getLsbD k)) fun k hk i j => ?_
  unfold mzdSetUi
  rw [bitAt_ofBits, spack_bit]
  show _ = ebit k (if i < A.nrows ∧ j < A.ncols then (if i = j then x else 0) else A.e i j)
  by_cases h : i < A.nrows ∧ j < A.ncols
  · rw [if_pos h, if_pos h]
    by_cases hij : i = j
    · subst hij; rw [if_pos rfl]; simp [ebit_apply]
    · rw [if_neg hij, map_zero]
      have : (i == j) = false := by simpa using hij
      rw [this, Bool.and_false]; rfl
  · rw [if_neg h, if_neg h, ebit_apply]

/-! ### whole matrices -/

theorem sliceCopy_spack (C A : Mat ff) : mzdSliceCopy C.spack A.spack = (C.copyM A).spack := by
  unfold mzdSliceCopy
  refine spack_op C (C.copyM A) rfl rfl rfl (fun k => mzdCopy A.nrows A.ncols (C.spack.x k) (A.spack.x k)) fun k hk i j => ?_
  unfold mzdCopy
  rw [bitAt_ofBits, spack_bit, spack_bit]
  exact (apply_ite (ebit k) _ _ _).symm

theorem sliceAdd_spack (C A B : Mat ff) (hf : A.fid = B.fid) (hr : A.nrows = B.nrows) (hc : A.ncols = B.ncols) (hf' : A.fid = C.fid)
    (hr' : A.nrows = C.nrows) (hc' : A.ncols = C.ncols) : mzdSliceAdd? C.spack A.spack B.spack = some (C.addM A B).spack := by
  unfold mzdSliceAdd?
  refine (if_pos ⟨hf, hr, hc⟩).trans ((if_pos ⟨hf', hr', hc'⟩).trans (congrArg some ?_))
  refine spack_op C (C.addM A B) rfl rfl rfl (fun k => mzdAdd A.nrows A.ncols (C.spack.x k) (A.spack.x k) (B.spack.x k)) fun k hk i j => ?_
  rw [bitAt_mzdAdd, spack_bit, spack_bit, spack_bit]
  show _ = ebit k (if i < A.nrows ∧ j < A.ncols then A.e i j + B.e i j else C.e i j)
  by_cases h : i < A.nrows ∧ j < A.ncols
  · rw [if_pos h, if_pos h, map_add]; rfl
  · rw [if_neg h, if_neg h]; rfl

theorem sliceEq_spack (A B : Mat ff) : mzdSliceEq A.spack B.spack = true ↔
    A.fid = B.fid ∧ A.nrows = B.nrows ∧ A.ncols = B.ncols ∧ ∀ i j, i < A.nrows → j < A.ncols → A.e i j = B.e i j := by
  have h2 := IsField.two_le (ff := ff)
  unfold mzdSliceEq mzdEq
  simp only [spack_depth, spack_nrows, spack_ncols, spack_fid, Bool.and_eq_true, beq_iff_eq, List.all_eq_true, List.mem_range, spack_bit]
  constructor
  · rintro ⟨⟨h1, _⟩, h⟩
    refine ⟨h1, (h 0 (by omega)).1.1, (h 0 (by omega)).1.2, fun i j hi hj => ?_⟩
    exact elem_ext_bits fun k hk => (h k hk).2 i hi j hj
  · rintro ⟨h1, h3, h4, h⟩
    exact ⟨⟨h1, trivial⟩, fun k hk => ⟨⟨h3, h4⟩, fun i hi j hj => by rw [h i j hi hj]⟩⟩

/-! ### rows and columns -/

theorem sliceRowSwap_spack (A : Mat ff) (a b : Nat) : mzdSliceRowSwap A.spack a b = (A.swapRows a b).spack := by
  unfold mzdSliceRowSwap
  refine spack_op A (A.swapRows a b) rfl rfl rfl (fun k => mzdRowSwap A.ncols (A.spack.x k) a b) fun k hk i j => ?_
  unfold mzdRowSwap
  rw [bitAt_ofBits]
  simp only [spack_bit]
  show _ = ebit k (if j < A.ncols then A.e (Equiv.swap a b i) j else A.e i j)
  rw [Equiv.swap_apply_def]
  split_ifs <;> rfl

theorem sliceColSwapInRows_spack (A : Mat ff) (a b start stop : Nat) :
    mzdSliceColSwapInRows A.spack a b start stop = (A.swapColsIn a b start stop).spack := by
  unfold mzdSliceColSwapInRows
  refine spack_op A (A.swapColsIn a b start stop) rfl rfl rfl (fun k => mzdColSwapInRows (A.spack.x k) a b start stop) fun k hk i j => ?_
  unfold mzdColSwapInRows
  rw [bitAt_ofBits]
  simp only [spack_bit]
  show _ = ebit k (if start ≤ i ∧ i < stop then A.e i (Equiv.swap a b j) else A.e i j)
  rw [Equiv.swap_apply_def]
  split_ifs <;> rfl

theorem sliceColSwap_spack (A : Mat ff) (a b : Nat) : mzdSliceColSwap A.spack a b = (A.swapCols a b).spack := by
  unfold mzdSliceColSwap
  refine spack_op A (A.swapCols a b) rfl rfl rfl (fun k => mzdColSwap A.nrows (A.spack.x k) a b) fun k hk i j => ?_
  unfold mzdColSwap mzdColSwapInRows
  rw [bitAt_ofBits]
  simp only [spack_bit]
  show _ = ebit k (if i < A.nrows then A.e i (Equiv.swap a b j) else A.e i j)
  rw [Equiv.swap_apply_def]
  by_cases h : i < A.nrows
  · rw [if_pos ⟨Nat.zero_le _, h⟩, if_pos h]
    split_ifs <;> rfl
  · rw [if_neg (fun hh => h hh.2), if_neg h]; rfl

/-- row `s` of `A` into row `r` -/
def Mat.copyRow (B : Mat ff) (r : Nat) (A : Mat ff) (s : Nat) : Mat ff :=
  { B with e := fun i j => if i = r ∧ j < A.ncols then A.e s j else B.e i j }
/-- row `s` added to row `d` -/
def Mat.addRows (A : Mat ff) (s d : Nat) : Mat ff :=
  { A with e := fun i j => if i = d ∧ j < A.ncols then A.e d j + A.e s j else A.e i j }

theorem sliceCopyRow_spack (B A : Mat ff) (r s : Nat) : mzdSliceCopyRow B.spack r A.spack s = (B.copyRow r A s).spack := by
  unfold mzdSliceCopyRow
  refine spack_op B (B.copyRow r A s) rfl rfl rfl (fun k => mzdCopyRow A.ncols (B.spack.x k) r (A.spack.x k) s) fun k hk i j => ?_
  unfold mzdCopyRow
  rw [bitAt_ofBits]
  simp only [spack_bit]
  exact (apply_ite (ebit k) _ _ _).symm

theorem sliceRowAdd_spack (A : Mat ff) (s d : Nat) : mzdSliceRowAdd A.spack s d = (A.addRows s d).spack := by
  unfold mzdSliceRowAdd
  refine spack_op A (A.addRows s d) rfl rfl rfl (fun k => mzdRowAdd A.ncols (A.spack.x k) s d) fun k hk i j => ?_
  unfold mzdRowAdd
  rw [bitAt_ofBits]
  simp only [spack_bit]
  show _ = ebit k (if i = d ∧ j < A.ncols then A.e d j + A.e s j else A.e i j)
  by_cases h : i = d ∧ j < A.ncols
  · rw [if_pos h, if_pos h, map_add]; rfl
  · rw [if_neg h, if_neg h]; rfl

/-! ### blocks and windows -/

def Mat.concat (A B : Mat ff) : Mat ff :=
  ⟨A.nrows, A.ncols + B.ncols, A.fid, fun i j => if i < A.nrows ∧ j < A.ncols then A.e i j
    else if i < A.nrows ∧ j < A.ncols + B.ncols then B.e i (j - A.ncols) else 0⟩
def Mat.stack (A B : Mat ff) : Mat ff :=
  ⟨A.nrows + B.nrows, A.ncols, A.fid, fun i j => if i < A.nrows ∧ j < A.ncols then A.e i j
    else if i < A.nrows + B.nrows ∧ j < A.ncols then B.e (i - A.nrows) j else 0⟩
def Mat.submatrix (A : Mat ff) (lr lc hr hc : Nat) : Mat ff :=
  ⟨hr - lr, hc - lc, A.fid, fun i j => if i < hr - lr ∧ j < hc - lc then A.e (lr + i) (lc + j) else 0⟩

theorem zero_bits (i j : Nat) : bitAt (fun _ _ => 0#64) i j = false := by unfold bitAt; simp

theorem sliceConcat_spack (A B : Mat ff) : mzdSliceConcat A.spack B.spack = (A.concat B).spack := by
  refine spack_ext rfl rfl rfl rfl rfl fun k i j => ?_
  show bitAt (if k < ff.degree then mzdConcat A.nrows A.ncols B.ncols (fun _ _ => 0#64) (A.spack.x k) (B.spack.x k) else fun _ _ => 0#64) i j =
    ebit k (if i < A.nrows ∧ j < A.ncols then A.e i j else if i < A.nrows ∧ j < A.ncols + B.ncols then B.e i (j - A.ncols) else 0)
  by_cases hk : k < ff.degree
  · rw [if_pos hk]
    unfold mzdConcat
    rw [bitAt_ofBits]
    simp only [spack_bit, zero_bits]
    split_ifs
    · rfl
    · rfl
    · rw [map_zero]; rfl
  · rw [if_neg hk, zero_bits, ebit_high (by omega)]

theorem sliceStack_spack (A B : Mat ff) : mzdSliceStack A.spack B.spack = (A.stack B).spack := by
  refine spack_ext rfl rfl rfl rfl rfl fun k i j => ?_
  show bitAt (if k < ff.degree then mzdStack A.nrows B.nrows A.ncols (fun _ _ => 0#64) (A.spack.x k) (B.spack.x k) else fun _ _ => 0#64) i j =
    ebit k (if i < A.nrows ∧ j < A.ncols then A.e i j else if i < A.nrows + B.nrows ∧ j < A.ncols then B.e (i - A.nrows) j else 0)
  by_cases hk : k < ff.degree
  · rw [if_pos hk]
    unfold mzdStack
    rw [bitAt_ofBits]
    simp only [spack_bit, zero_bits]
    split_ifs
    · rfl
    · rfl
    · rw [map_zero]; rfl
  · rw [if_neg hk, zero_bits, ebit_high (by omega)]

theorem sliceSubmatrix_spack (A : Mat ff) (lr lc hr hc : Nat) : mzdSliceSubmatrix A.spack lr lc hr hc = (A.submatrix lr lc hr hc).spack := by
  refine spack_ext rfl rfl rfl rfl rfl fun k i j => ?_
  show bitAt (if k < ff.degree then mzdSubmatrix (fun _ _ => 0#64) (A.spack.x k) lr lc hr hc else fun _ _ => 0#64) i j =
    ebit k (if i < hr - lr ∧ j < hc - lc then A.e (lr + i) (lc + j) else 0)
  by_cases hk : k < ff.degree
  · rw [if_pos hk]
    unfold mzdSubmatrix
    rw [bitAt_ofBits]
    simp only [spack_bit, zero_bits]
    split_ifs
    · rfl
    · rw [map_zero]; rfl
  · rw [if_neg hk, zero_bits, ebit_high (by omega)]

theorem bitAt_window (M : Nat → Nat → Word) (lr lc i j : Nat) (h : lc % 64 = 0) : bitAt (mzdWindow M lr lc) i j = bitAt M (lr + i) (lc + j) := by
  unfold bitAt mzdWindow
  have h1 : (lc + j) / 64 = lc / 64 + j / 64 := by omega
  have h2 : (lc + j) % 64 = j % 64 := by omega
  rw [h1, h2]

theorem bitAt_windowWrite (M V : Nat → Nat → Word) (lr lc i j : Nat) (h : lc % 64 = 0) :
    bitAt (mzdWindowWrite M lr lc V) i j = if lr ≤ i ∧ lc ≤ j then bitAt V (i - lr) (j - lc) else bitAt M i j := by
  unfold bitAt mzdWindowWrite
  by_cases hh : lr ≤ i ∧ lc ≤ j
  · rw [if_pos hh, if_pos ⟨hh.1, by omega⟩]
    have h1 : (j - lc) / 64 = j / 64 - lc / 64 := by omega
    have h2 : (j - lc) % 64 = j % 64 := by omega
    rw [h1, h2]
  · rw [if_neg hh, if_neg (by omega)]

theorem sliceWindow_spack (A : Mat ff) (lr lc hr hc : Nat) (h : lc % 64 = 0) :
    mzdSliceWindow A.spack lr lc hr hc = (A.window lr lc hr hc).spack := by
  refine spack_ext rfl rfl rfl rfl rfl fun k i j => ?_
  show bitAt (mzdWindow (A.spack.x k) lr lc) i j = ebit k (A.e (lr + i) (lc + j))
  rw [bitAt_window _ _ _ _ _ h, spack_bit]; rfl

theorem sliceWindowWrite_spack (A W : Mat ff) (lr lc : Nat) (h : lc % 64 = 0) :
    { A.spack with x := fun k => mzdWindowWrite (A.spack.x k) lr lc (W.spack.x k) } = (A.unwindow lr lc W).spack := by
  refine spack_ext rfl rfl rfl rfl rfl fun k i j => ?_
  show bitAt (mzdWindowWrite (A.spack.x k) lr lc (W.spack.x k)) i j = ebit k (if lr ≤ i ∧ lc ≤ j then W.e (i - lr) (j - lc) else A.e i j)
  rw [bitAt_windowWrite _ _ _ _ _ _ h, spack_bit, spack_bit]
  split_ifs <;> rfl

theorem onSWindow_spack (A : Mat ff) (lr lc hr hc : Nat) (h : lc % 64 = 0) {f : Slice → Option Slice} {W : Mat ff}
    (hf : f (A.window lr lc hr hc).spack = some W.spack) : onSWindow A.spack lr lc hr hc f = some (A.unwindow lr lc W).spack := by
  unfold onSWindow
  rw [sliceWindow_spack A lr lc hr hc h, hf, Option.map_some, sliceWindowWrite_spack A W lr lc h]

end M4rie
