import Verif.Proofs.Words

/-! # Sequences of word accesses: whole calls -/

namespace M4rie
open M4rie.Spec Spec.Code Handle

/-- `X` has the header of `A` -/
structure Hdr (A : Handle) (X : Mzed) : Prop where
  ff : X.ff = A.ff
  nrows : X.nrows = A.nrows
  ncols : X.ncols = A.ncols
  w : X.w = A.w

theorem Hdr.view (A : Handle) (m : Mem) : Hdr A (A.view m) := ⟨rfl, rfl, rfl, rfl⟩

theorem Hdr.withWords {A : Handle} {X : Mzed} (h : Hdr A X) (w : Nat → Nat → Word) : Hdr A { X with words := w } := ⟨h.ff, h.nrows, h.ncols, h.w⟩

theorem put_view (A : Handle) (m : Mem) : A.put m (A.view m) = m := putW_view

/-- `p` does to the matrix `A` what `F` says, whatever is in it -/
def Eff (A : Handle) (m : Mem) (p : Code Unit) (F : Mzed → Mzed) : Prop :=
  ∀ X, Hdr A X → p.alone (A.put m X) = ((), A.put m (F X)) ∧ Hdr A (F X)

section
variable {A B : Handle} {m : Mem}

theorem Eff.done : Eff A m (.done ()) fun X => X := fun _ h => ⟨rfl, h⟩

theorem Eff.then {p : Code Unit} {q : Unit → Code Unit} {F G : Mzed → Mzed} (hp : Eff A m p F) (hq : Eff A m (q ()) G) :
    Eff A m (p.andThen q) fun X => G (F X) := fun X h => by
  rw [alone_andThen, (hp X h).1]
  exact hq _ (hp X h).2

theorem Eff.congr {p : Code Unit} {F G : Mzed → Mzed} (hp : Eff A m p F) (e : ∀ X, Hdr A X → F X = G X) : Eff A m p G := fun X h => by
  rw [← e X h]; exact hp X h

theorem Eff.forC {f : Nat → Code Unit} {F : Nat → Mzed → Mzed} : ∀ {n : Nat}, (∀ i < n, Eff A m (f i) (F i)) → Eff A m (forC f n) fun X => forN F n X
  | 0, _ => Eff.done
  | n + 1, h => (Eff.then (Eff.forC (F := F) (n := n) fun i hi => h i (by omega)) (h n (by omega))).congr fun _ _ => rfl

theorem RowSpec.eff {X : Mzed} {ar : Nat} {p : Code Unit} {g : (Nat → Word) → (Nat → Word)} (h : RowSpec A m X.words ar p fun row => ((), g row)) :
    p.alone (A.put m X) = ((), A.put m { X with words := setRow X.words ar (g (X.words ar)) }) := by
  have := h (X.words ar)
  rw [setRow_self'] at this
  exact this

/-! ### elements -/

theorem read_own (hw : 0 < A.w) {r c : Nat} (hr : r < A.nrows) (hc : c < A.ncols) {X : Mzed} (h : Hdr A X) :
    (readElemC A r c).alone (A.put m X) = (mzedReadElem X r c, A.put m X) := by
  show ((A.put m X (A.loc r (A.w * c / 64)) <<< (64 - (A.w * c % 64 + A.w))) >>> (64 - A.w), A.put m X) = _
  rw [put_eq, putW_loc hr (elem_lt hw hc)]
  unfold mzedReadElem mzdReadBits
  rw [h.w]

theorem read_other (hw : 0 < B.w) {r c : Nat} (hr : r < B.nrows) (hc : c < B.ncols) (hd : Disjoint A.words B.words) (X : Mzed) :
    (readElemC B r c).alone (A.put m X) = (mzedReadElem (B.view m) r c, A.put m X) := by
  show ((A.put m X (B.loc r (B.w * c / 64)) <<< (64 - (B.w * c % 64 + B.w))) >>> (64 - B.w), A.put m X) = _
  rw [put_eq, putW_off fun h => Set.disjoint_left.1 hd h (loc_mem hr (elem_lt hw hc))]
  rfl

theorem read_alone (A : Handle) (r c : Nat) (m : Mem) : (readElemC A r c).alone m = (mzedReadElem (A.view m) r c, m) := rfl

theorem eff_addElem (hw : 0 < A.w) {r c : Nat} (hr : r < A.nrows) (hc : c < A.ncols) (x : Word) :
    Eff A m (addElemC A r c x) fun X => mzedAddElem X r c x := fun X h => by
  refine ⟨?_, h.withWords _⟩
  refine (rs_updC hr (elem_lt hw hc) _).eff.trans ?_
  show ((), A.putW m _) = ((), A.putW m (mzdXorBits X.words r (X.w * c) x))
  unfold mzdXorBits
  rw [h.w]

theorem eff_clearElem (hw : 0 < A.w) {r c : Nat} (hr : r < A.nrows) (hc : c < A.ncols) :
    Eff A m (clearElemC A r c) fun X => { X with words := mzdClearBits X.words r (X.w * c) X.w } := fun X h => by
  refine ⟨?_, h.withWords _⟩
  refine (rs_updC hr (elem_lt hw hc) _).eff.trans ?_
  show ((), A.putW m _) = ((), A.putW m (mzdClearBits X.words r (X.w * c) X.w))
  unfold mzdClearBits
  rw [h.w]

theorem eff_writeElem (hw : 0 < A.w) {r c : Nat} (hr : r < A.nrows) (hc : c < A.ncols) (x : Word) :
    Eff A m (writeElemC A r c x) fun X => mzedWriteElem X r c x :=
  (Eff.then (eff_clearElem hw hr hc) (eff_addElem hw hr hc x)).congr fun _ _ => rfl

/-! ### rows -/

theorem alone_addRow (hw : 0 < A.w) {ar : Nat} (har : ar < A.nrows) {s : Nat} (hs : s < A.ncols) {X Y : Mzed} (hX : Hdr A X) {br : Nat}
    (hsrc : SrcRow A m X.words ar B br (Y.words br)) :
    (addRowC A ar B br s).alone (A.put m X) = ((), A.put m (mzedAddRow X ar Y br s)) := by
  refine (rs_addRowC har hsrc hw hs).eff.trans ?_
  unfold mzedAddRow
  rw [hX.w, hX.ncols]

theorem eff_rescaleElems (hw : 0 < A.w) {r : Nat} (hr : r < A.nrows) (mul : Word → Word) : ∀ (n j : Nat), j + n ≤ A.ncols →
    Eff A m (rescaleElemsC mul A r n j) fun X => rescaleElems mul r n j X
  | 0, _, _ => Eff.done
  | n + 1, j, h => fun X hX => by
    have e := eff_writeElem (m := m) hw hr (c := j) (by omega) (mul (mzedReadElem X r j)) X hX
    have i := eff_rescaleElems hw hr mul n (j + 1) (by omega) _ e.2
    refine ⟨?_, i.2⟩
    unfold rescaleElemsC
    rw [alone_andThen, read_own hw hr (by omega) hX, alone_andThen, e.1]
    exact i.1

theorem eff_rescaleRow (hw : 0 < A.w) {r : Nat} (hr : r < A.nrows) {s : Nat} (hs : s < A.ncols) (x : Word) :
    Eff A m (rescaleRowC A r s x) fun X => mzedRescaleRow X r s x := fun X h => by
  show (rescaleRowC A r s x).alone _ = ((), A.put m (mzedRescaleRow X r s x)) ∧ Hdr A (mzedRescaleRow X r s x)
  cases e : rescaleCode A.w with
  | some code =>
    have e1 : mzedRescaleRow X r s x = { X with words := setRow X.words r (rescaleWords (gf2eMul X.ff x) code X.w X.ncols s (X.words r)) } := by
      unfold mzedRescaleRow; rw [show rescaleCode X.w = some code by rw [h.w, e]]
    have e2 : rescaleRowC A r s x = rescaleWordsC (gf2eMul A.ff x) code A r s := by unfold rescaleRowC; rw [e]
    rw [e1, e2]
    refine ⟨?_, h.withWords _⟩
    refine (rs_rescaleWords hr hw hs _ code).eff.trans ?_
    show ((), A.putW m _) = ((), A.putW m _)
    rw [h.ff, h.ncols, h.w]
  | none =>
    have := eff_rescaleElems (m := m) hw hr (gf2eMul A.ff x) (A.ncols - s) s (by omega) X h
    have e1 : mzedRescaleRow X r s x = rescaleElems (gf2eMul A.ff x) r (A.ncols - s) s X := by
      unfold mzedRescaleRow; rw [show rescaleCode X.w = none by rw [h.w, e], h.ff, h.ncols]
    have e2 : rescaleRowC A r s x = rescaleElemsC (gf2eMul A.ff x) A r (A.ncols - s) s := by unfold rescaleRowC; rw [e]
    rw [e1, e2]
    exact this

theorem alone_addmulElems (hw : 0 < A.w) (hBw : B.w = A.w) {ar : Nat} (har : ar < A.nrows) (mul : Word → Word) {Y : Mzed} {br : Nat} (hY : Y.w = A.w) :
    ∀ (n j : Nat) (X : Mzed), j + n ≤ A.ncols → Hdr A X → SrcRow A m X.words ar B br (Y.words br) →
    (addmulElemsC mul A ar B br n j).alone (A.put m X) = ((), A.put m (addmulElems mul ar Y br n j X)) ∧ Hdr A (addmulElems mul ar Y br n j X)
  | 0, _, _, _, hX, _ => ⟨rfl, hX⟩
  | n + 1, j, X, h, hX, hsrc => by
    have e := eff_addElem (m := m) hw har (c := j) (by omega) (mul (mzedReadElem Y br j)) X hX
    have hsrc' : SrcRow A m (mzedAddElem X ar j (mul (mzedReadElem Y br j))).words ar B br (Y.words br) := fun k hk row => by
      rw [← hsrc k hk row]
      unfold mzedAddElem mzdXorBits
      rw [setRow_setRow]
    have i := alone_addmulElems hw hBw har mul hY n (j + 1) _ (by omega) e.2 hsrc'
    refine ⟨?_, i.2⟩
    unfold addmulElemsC
    have hr : (readElemC B br j).alone (A.put m X) = (mzedReadElem Y br j, A.put m X) := by
      show ((A.put m X (B.loc br (B.w * j / 64)) <<< (64 - (B.w * j % 64 + B.w))) >>> (64 - B.w), A.put m X) = _
      have := hsrc (A.w * j / 64) (elem_lt hw (by omega)) (X.words ar)
      rw [setRow_self'] at this
      rw [hBw, put_eq, this]
      unfold mzedReadElem mzdReadBits
      rw [hY]
    rw [alone_andThen, hr, alone_andThen, e.1]
    exact i.1

theorem alone_addMultipleOfRow (hw : 0 < A.w) (hBw : B.w = A.w) (hBn : B.ncols = A.ncols) {ar : Nat} (har : ar < A.nrows) {s : Nat} (hs : s < A.ncols)
    {X Y : Mzed} (hX : Hdr A X) (hY : Y.w = A.w) (hYn : Y.ncols = A.ncols) {br : Nat} (hsrc : SrcRow A m X.words ar B br (Y.words br)) (x : Word) :
    (addMultipleOfRowC A ar B br x s).alone (A.put m X) = ((), A.put m (mzedAddMultipleOfRow X ar Y br x s)) ∧
      Hdr A (mzedAddMultipleOfRow X ar Y br x s) := by
  by_cases h0 : x = 0#64
  · unfold addMultipleOfRowC mzedAddMultipleOfRow
    rw [if_pos h0, if_pos h0]; exact ⟨rfl, hX⟩
  by_cases h1 : x = 1#64
  · unfold addMultipleOfRowC mzedAddMultipleOfRow
    rw [if_neg h0, if_neg h0, if_pos h1, if_pos h1]; exact ⟨alone_addRow hw har hs hX hsrc, hX.withWords _⟩
  cases e : addmulCode A.w with
  | some code =>
    have e1 : mzedAddMultipleOfRow X ar Y br x s =
        { X with words := setRow X.words ar (addmulWords (gf2eMul X.ff x) code X.w X.ncols s (X.words ar) (Y.words br)) } := by
      unfold mzedAddMultipleOfRow; rw [if_neg h0, if_neg h1, show addmulCode X.w = some code by rw [hX.w, e]]
    have e2 : addMultipleOfRowC A ar B br x s = addmulWordsC (gf2eMul A.ff x) code A ar B br s := by
      unfold addMultipleOfRowC; rw [if_neg h0, if_neg h1, e]
    rw [e1, e2]
    refine ⟨?_, hX.withWords _⟩
    refine (rs_addmulWords har hsrc hw hs _ code).eff.trans ?_
    show ((), A.putW m _) = ((), A.putW m _)
    rw [hX.ff, hX.ncols, hX.w]
  | none =>
    have := alone_addmulElems hw hBw har (gf2eMul A.ff x) hY (A.ncols - s) s X (by omega) hX hsrc
    have e1 : mzedAddMultipleOfRow X ar Y br x s = addmulElems (gf2eMul A.ff x) ar Y br (A.ncols - s) s X := by
      unfold mzedAddMultipleOfRow; rw [if_neg h0, if_neg h1, show addmulCode X.w = none by rw [hX.w, e], hX.ff, hYn]
    have e2 : addMultipleOfRowC A ar B br x s = addmulElemsC (gf2eMul A.ff x) A ar B br (A.ncols - s) s := by
      unfold addMultipleOfRowC; rw [if_neg h0, if_neg h1, e, hBn]
    rw [e1, e2]
    exact this

/-- the source is a row that has no word in common with the target -/
theorem srcRow_apart {ar br : Nat} (hwid : B.width = A.width) (hd : Disjoint (A.rowWords ar) (B.rowWords br)) :
    SrcRow A m (A.view m).words ar B br ((B.view m).words br) := fun j hj row => by
  show A.putW m _ (B.loc br j) = m (B.loc br j)
  have hn : B.loc br j ∉ A.rowWords ar := fun h => Set.disjoint_left.1 hd h (loc_mem_row (by omega))
  by_cases h : B.loc br j ∈ A.words
  · obtain ⟨r, hr, k, hk, e⟩ := h
    rw [e, putW_loc hr hk]
    have hra : r ≠ ar := by rintro rfl; exact hn ⟨k, hk, e⟩
    unfold setRow
    rw [if_neg hra]; rfl
  · rw [putW_off h]

/-- the source is another row of the same matrix -/
theorem srcRow_same (X : Mzed) {ar br : Nat} (hbr : br < A.nrows) (h : br ≠ ar) : SrcRow A m X.words ar A br (X.words br) := fun j hj row => by
  rw [putW_loc hbr hj]
  unfold setRow
  rw [if_neg h]

theorem eff_addMultipleOfRow_same (hw : 0 < A.w) {ar br : Nat} (har : ar < A.nrows) (hbr : br < A.nrows) (h : br ≠ ar) {s : Nat} (hs : s < A.ncols) (x : Word) :
    Eff A m (addMultipleOfRowC A ar A br x s) fun X => mzedAddMultipleOfRow X ar X br x s := fun X hX =>
  alone_addMultipleOfRow hw rfl rfl har hs hX hX.w hX.ncols (srcRow_same X hbr h) x

/-! ### matrices -/

theorem mzdClear_congr {nr nc : Nat} {X Y : Nat → Nat → Word} {r j : Nat} (h : X r j = Y r j) : mzdClear nr nc X r j = mzdClear nr nc Y r j := by
  unfold mzdClear ofBits
  have e : ∀ n ≤ 64, wordOfBits (fun k => if r < nr ∧ 64 * j + k < nc then false else bitAt X r (64 * j + k)) n =
      wordOfBits (fun k => if r < nr ∧ 64 * j + k < nc then false else bitAt Y r (64 * j + k)) n := by
    intro n hn
    induction n with
    | zero => rfl
    | succ n ih =>
      unfold wordOfBits
      rw [ih (by omega)]
      have : bitAt X r (64 * j + n) = bitAt Y r (64 * j + n) := by
        unfold bitAt
        rw [show (64 * j + n) / 64 = j by omega, h]
      rw [this]
  exact e 64 (le_refl _)

theorem view_put_words {X : Mzed} {r j : Nat} (hr : r < A.nrows) (hj : j < A.width) : (A.view (A.put m X)).words r j = X.words r j := putW_loc hr hj

theorem eff_clear {lib : WordLib} (hl : lib.OK) : Eff A m (lib.clear A) fun X => { X with words := mzdClear X.nrows X.bitCols X.words } := fun X h => by
  refine ⟨?_, h.withWords _⟩
  refine Prod.ext rfl ?_
  rw [hl.clear, put_eq, put_eq, put_eq, putW_putW]
  refine putW_congr fun r hr j hj => ?_
  show mzdClear _ _ _ r j = mzdClear _ (X.w * X.ncols) _ r j
  rw [h.nrows, h.ncols, h.w]
  exact mzdClear_congr (view_put_words (X := X) hr hj)

theorem eff_setUi {lib : WordLib} (hl : lib.OK) (hw : 0 < A.w) (x : Word) : Eff A m (setUiC lib A x) fun X => mzedSetUi X x := by
  unfold setUiC mzedSetUi
  by_cases h : x = 0#64
  · simp only [if_pos h]
    exact (Eff.then (eff_clear hl) Eff.done).congr fun _ _ => rfl
  · simp only [if_neg h]
    refine (Eff.then (eff_clear hl) (Eff.forC fun i hi => eff_writeElem hw (r := i) (c := i) (by omega) (by omega) x)).congr fun X hX => ?_
    show forN _ (min A.ncols A.nrows) _ = forN _ (min X.ncols X.nrows) _
    rw [hX.nrows, hX.ncols]

theorem eff_mulNaiveAcc {C : Handle} (hw : 0 < C.w) (hAw : A.w = C.w) (hBw : B.w = C.w) (h1 : A.ncols = B.nrows) (h2 : C.nrows = A.nrows)
    (h3 : C.ncols = B.ncols) (hdA : Disjoint C.words A.words) (hdB : Disjoint C.words B.words) :
    Eff C m (mulNaiveAccC C A B) fun X => mzedMulNaiveAcc X (A.view m) (B.view m) := by
  have step : ∀ i < C.nrows, ∀ j < C.ncols, ∀ k < A.ncols, Eff C m ((readElemC A i k).andThen fun a => (readElemC B k j).andThen fun b =>
      addElemC C i j (gf2eMul C.ff a b)) fun X => mzedAddElem X i j (gf2eMul X.ff (mzedReadElem (A.view m) i k) (mzedReadElem (B.view m) k j)) := by
    intro i hi j hj k hk X hX
    rw [alone_andThen, read_other (by omega) (by omega) hk hdA, alone_andThen, read_other (by omega) (by omega) (by omega) hdB]
    beta_reduce
    rw [hX.ff]
    exact eff_addElem hw hi hj _ X hX
  have inner : ∀ i < C.nrows, ∀ j < C.ncols, Eff C m (forC (fun k => (readElemC A i k).andThen fun a => (readElemC B k j).andThen fun b =>
      addElemC C i j (gf2eMul C.ff a b)) A.ncols) fun X => forN (fun k C =>
        mzedAddElem C i j (gf2eMul C.ff (mzedReadElem (A.view m) i k) (mzedReadElem (B.view m) k j))) A.ncols X :=
    fun i hi j hj => Eff.forC fun k hk => step i hi j hj k hk
  have mid : ∀ i < C.nrows, Eff C m (forC (fun j => forC (fun k => (readElemC A i k).andThen fun a => (readElemC B k j).andThen fun b =>
      addElemC C i j (gf2eMul C.ff a b)) A.ncols) C.ncols) fun X => forN (fun j X => forN (fun k C =>
        mzedAddElem C i j (gf2eMul C.ff (mzedReadElem (A.view m) i k) (mzedReadElem (B.view m) k j))) A.ncols X) X.ncols X :=
    fun i hi => (Eff.forC fun j hj => inner i hi j hj).congr fun X hX => by rw [hX.ncols]
  refine (Eff.forC fun i hi => mid i hi).congr fun X hX => ?_
  unfold mzedMulNaiveAcc
  rw [hX.nrows]; rfl

theorem eff_trsmUpper {U : Handle} (hw : 0 < B.w) (hc : 0 < B.ncols) (hUw : U.w = B.w) (hr : U.nrows = B.nrows) (hn : U.ncols = B.nrows)
    (hd : Disjoint B.words U.words) : Eff B m (trsmUpperNaiveC U B) fun X => mzedTrsmUpperLeftNaive (U.view m) X := by
  refine (Eff.forC (F := fun t X =>
    let i := B.nrows - 1 - t
    let X := forN (fun d X => mzedAddMultipleOfRow X i X (i + 1 + d) (mzedReadElem (U.view m) i (i + 1 + d)) 0) (B.nrows - (i + 1)) X
    mzedRescaleRow X i 0 (gf2eInv U.ff (mzedReadElem (U.view m) i i))) fun t ht => ?_).congr fun X hX => ?_
  · refine (Eff.then (Eff.forC (F := fun d X => mzedAddMultipleOfRow X (B.nrows - 1 - t) X (B.nrows - 1 - t + 1 + d)
        (mzedReadElem (U.view m) (B.nrows - 1 - t) (B.nrows - 1 - t + 1 + d)) 0) fun d hd' X hX => ?_)
      (fun X hX => ?_ : Eff B m _ fun X => mzedRescaleRow X (B.nrows - 1 - t) 0 (gf2eInv U.ff (mzedReadElem (U.view m) (B.nrows - 1 - t) (B.nrows - 1 - t))))).congr fun X _ => rfl
    · rw [alone_andThen, read_other (by omega) (by omega) (by omega) hd]
      exact eff_addMultipleOfRow_same hw (by omega) (by omega) (by omega) hc _ X hX
    · rw [alone_andThen, read_other (by omega) (by omega) (by omega) hd]
      exact eff_rescaleRow hw (by omega) hc _ X hX
  · unfold mzedTrsmUpperLeftNaive
    rw [hX.nrows]; rfl

theorem eff_trsmLower {L : Handle} (hw : 0 < B.w) (hc : 0 < B.ncols) (hLw : L.w = B.w) (hr : L.nrows = B.nrows) (hn : L.ncols = B.nrows)
    (hd : Disjoint B.words L.words) : Eff B m (trsmLowerNaiveC L B) fun X => mzedTrsmLowerLeftNaive (L.view m) X := by
  refine (Eff.forC (F := fun i X =>
    let X := forN (fun k X => mzedAddMultipleOfRow X i X k (mzedReadElem (L.view m) i k) 0) i X
    mzedRescaleRow X i 0 (gf2eInv L.ff (mzedReadElem (L.view m) i i))) fun i hi => ?_).congr fun X hX => ?_
  · refine (Eff.then (Eff.forC (F := fun k X => mzedAddMultipleOfRow X i X k (mzedReadElem (L.view m) i k) 0) fun k hk X hX => ?_)
      (fun X hX => ?_ : Eff B m _ fun X => mzedRescaleRow X i 0 (gf2eInv L.ff (mzedReadElem (L.view m) i i)))).congr fun X _ => rfl
    · rw [alone_andThen, read_other (by omega) (by omega) (by omega) hd]
      exact eff_addMultipleOfRow_same hw (by omega) (by omega) (by omega) hc _ X hX
    · rw [alone_andThen, read_other (by omega) (by omega) (by omega) hd]
      exact eff_rescaleRow hw (by omega) hc _ X hX
  · unfold mzedTrsmLowerLeftNaive
    rw [hX.nrows]; rfl

theorem alone_findPivot (hw : 0 < A.w) {c : Nat} (hc : c < A.ncols) {X : Mzed} (hX : Hdr A X) : ∀ (n r : Nat), r + n ≤ A.nrows →
    (findPivotC A c n r).alone (A.put m X) = ((findPivot X c n r).map fun r => (r, mzedReadElem X r c), A.put m X) ∧
      ∀ r' ∈ findPivot X c n r, r ≤ r' ∧ r' < r + n
  | 0, _, _ => ⟨rfl, fun _ h => by cases h⟩
  | n + 1, r, h => by
    unfold findPivotC findPivot
    rw [alone_andThen, read_own hw (by omega) hc hX]
    by_cases h0 : mzedReadElem X r c ≠ 0#64
    · simp only [if_pos h0]
      refine ⟨rfl, fun r' hr' => ?_⟩
      cases hr'; omega
    · simp only [if_neg h0]
      obtain ⟨i1, i2⟩ := alone_findPivot hw hc hX n (r + 1) (by omega)
      exact ⟨i1, fun r' hr' => by have := i2 r' hr'; omega⟩

theorem mzdRowSwap_congr {nc : Nat} {X Y : Nat → Nat → Word} {a b r j : Nat} (h : X r j = Y r j) (ha : X a j = Y a j) (hb : X b j = Y b j) :
    mzdRowSwap nc X a b r j = mzdRowSwap nc Y a b r j := by
  unfold mzdRowSwap ofBits
  have e : ∀ n ≤ 64, wordOfBits (fun k => if 64 * j + k < nc then (if r = a then bitAt X b (64 * j + k) else if r = b then bitAt X a (64 * j + k)
        else bitAt X r (64 * j + k)) else bitAt X r (64 * j + k)) n =
      wordOfBits (fun k => if 64 * j + k < nc then (if r = a then bitAt Y b (64 * j + k) else if r = b then bitAt Y a (64 * j + k)
        else bitAt Y r (64 * j + k)) else bitAt Y r (64 * j + k)) n := by
    intro n hn
    induction n with
    | zero => rfl
    | succ n ih =>
      unfold wordOfBits
      rw [ih (by omega)]
      have e : ∀ i, X i j = Y i j → bitAt X i (64 * j + n) = bitAt Y i (64 * j + n) := fun i hi => by
        unfold bitAt
        rw [show (64 * j + n) / 64 = j by omega, hi]
      rw [e r h, e a ha, e b hb]
  exact e 64 (le_refl _)

theorem eff_rowSwap {lib : WordLib} (hl : lib.OK) {a b : Nat} (ha : a < A.nrows) (hb : b < A.nrows) :
    Eff A m (lib.rowSwap A a b) fun X => mzedRowSwap X a b := fun X h => by
  refine ⟨?_, h.withWords _⟩
  refine Prod.ext rfl ?_
  rw [hl.swap A a b _ ha hb, put_eq, put_eq, put_eq, putW_putW]
  refine putW_congr fun r hr j hj => ?_
  show mzdRowSwap (A.w * A.ncols) _ a b r j = mzdRowSwap (X.w * X.ncols) _ a b r j
  rw [h.ncols, h.w]
  exact mzdRowSwap_congr (view_put_words (X := X) hr hj) (view_put_words (X := X) ha hj) (view_put_words (X := X) hb hj)

theorem eff_elimRows (hw : 0 < A.w) {startRow c : Nat} (hs : startRow < A.nrows) (hc : c < A.ncols) (e0 : Nat) :
    Eff A m (elimRowsC A startRow c e0) fun X => elimRows X startRow c e0 := by
  refine (Eff.forC (F := fun k X => if e0 + k = startRow then X else if mzedReadElem X (e0 + k) c = 0#64 then X
    else mzedAddMultipleOfRow X (e0 + k) X startRow (mzedReadElem X (e0 + k) c) c) fun k hk X hX => ?_).congr fun X hX => ?_
  · by_cases h : e0 + k = startRow
    · simp only [if_pos h]; exact ⟨rfl, hX⟩
    · simp only [if_neg h]
      rw [alone_andThen, read_own hw (by omega) hc hX]
      by_cases h0 : mzedReadElem X (e0 + k) c = 0#64
      · simp only [if_pos h0]; exact ⟨rfl, hX⟩
      · simp only [if_neg h0]
        exact eff_addMultipleOfRow_same hw (by omega) hs (by omega) hc _ X hX
  · unfold elimRows
    rw [hX.nrows]

theorem alone_echelonizeCol {lib : WordLib} (hl : lib.OK) (hw : 0 < A.w) (full : Bool) {c : Nat} (hc : c < A.ncols) {s : Nat} (hs : s ≤ A.nrows)
    {X : Mzed} (hX : Hdr A X) :
    (echelonizeColC lib A full c s).alone (A.put m X) = ((echelonizeCol full c (X, s)).2, A.put m (echelonizeCol full c (X, s)).1) ∧
      Hdr A (echelonizeCol full c (X, s)).1 ∧ (echelonizeCol full c (X, s)).2 ≤ A.nrows := by
  obtain ⟨f1, f2⟩ := alone_findPivot (m := m) hw hc hX (A.nrows - s) s (by omega)
  unfold echelonizeColC echelonizeCol
  rw [alone_andThen, f1]
  dsimp only
  rw [hX.nrows]
  cases e : findPivot X c (A.nrows - s) s with
  | none => exact ⟨rfl, hX, hs⟩
  | some r =>
    have hr := f2 r e
    have e1 := eff_rescaleRow (m := m) hw (r := r) (by omega) hc (gf2eInv A.ff (mzedReadElem X r c)) X hX
    have e2 := eff_rowSwap (m := m) hl (a := r) (b := s) (by omega) (by omega) _ e1.2
    have e3 := eff_elimRows (m := m) hw (startRow := s) (by omega) hc (if full then 0 else s + 1) _ e2.2
    dsimp only [Option.map]
    rw [alone_andThen, e1.1, alone_andThen, e2.1, alone_andThen, e3.1, hX.ff]
    exact ⟨rfl, e3.2, by show s + 1 ≤ _; omega⟩

theorem alone_echelonize {lib : WordLib} (hl : lib.OK) (hw : 0 < A.w) (full : Bool) {X : Mzed} (hX : Hdr A X) : ∀ n ≤ A.ncols,
    (echelonizeNaiveC lib A full n).alone (A.put m X) = ((forN (echelonizeCol full) n (X, 0)).2, A.put m (forN (echelonizeCol full) n (X, 0)).1) ∧
      Hdr A (forN (echelonizeCol full) n (X, 0)).1 ∧ (forN (echelonizeCol full) n (X, 0)).2 ≤ A.nrows
  | 0, _ => ⟨rfl, hX, Nat.zero_le _⟩
  | n + 1, h => by
    obtain ⟨i1, i2, i3⟩ := alone_echelonize hl hw full hX n (by omega)
    have := alone_echelonizeCol (m := m) hl hw full (c := n) (by omega) i3 i2
    unfold echelonizeNaiveC forN
    rw [alone_andThen, i1]
    exact this

end

/-- what a call does when nobody interferes -/
theorem call_alone {lib : WordLib} (hl : lib.OK) (c : WCall) (h : c.Ok) (m : Mem) : (c.code lib).alone m = c.effect m := by
  cases c with
  | readElem A r c => rfl
  | writeElem A r c x =>
    have := (eff_writeElem (m := m) h.1 h.2.1 h.2.2 x _ (Hdr.view A m)).1
    rw [put_view] at this
    unfold WCall.code WCall.effect
    rw [alone_andThen, this]; rfl
  | addElem A r c x =>
    have := (eff_addElem (m := m) h.1 h.2.1 h.2.2 x _ (Hdr.view A m)).1
    rw [put_view] at this
    unfold WCall.code WCall.effect
    rw [alone_andThen, this]; rfl
  | addRow A ar B br s =>
    obtain ⟨hw, ha, hb, hs, hn, hBw, hd⟩ := h
    have := alone_addRow (m := m) hw ha hs (Hdr.view A m) (Y := B.view m) (srcRow_apart (by unfold Handle.width; rw [hn, hBw]) hd)
    rw [put_view] at this
    unfold WCall.code WCall.effect
    rw [alone_andThen, this]; rfl
  | rescaleRow A r s x =>
    have := (eff_rescaleRow (m := m) h.1 h.2.1 h.2.2 x _ (Hdr.view A m)).1
    rw [put_view] at this
    unfold WCall.code WCall.effect
    rw [alone_andThen, this]; rfl
  | addMultipleOfRow A ar B br x s =>
    obtain ⟨hw, ha, hb, hs, hn, hBw, hd⟩ := h
    have := (alone_addMultipleOfRow (m := m) hw hBw hn ha hs (Hdr.view A m) (Y := B.view m) hBw hn
      (srcRow_apart (by unfold Handle.width; rw [hn, hBw]) hd) x).1
    rw [put_view] at this
    unfold WCall.code WCall.effect
    rw [alone_andThen, this]; rfl
  | rowSwap A a b =>
    have := (eff_rowSwap (m := m) hl h.1 h.2 _ (Hdr.view A m)).1
    rw [put_view] at this
    unfold WCall.code WCall.effect
    rw [alone_andThen, this]; rfl
  | setUi A x =>
    have := (eff_setUi (m := m) hl h x _ (Hdr.view A m)).1
    rw [put_view] at this
    unfold WCall.code WCall.effect
    rw [alone_andThen, this]; rfl
  | mulNaive C A B =>
    obtain ⟨h1, h2, h3, h4, h5, h6, h7, h8, h9, h10⟩ := h
    have e := eff_setUi (m := m) hl h1 0#64 _ (Hdr.view C m)
    have := (eff_mulNaiveAcc (m := m) h1 h2 h3 h6 h7 h8 h9 h10 _ e.2).1
    rw [put_view] at e
    unfold WCall.code WCall.effect mulNaiveC
    rw [alone_andThen, alone_andThen, e.1, this]
    have e2 : mzedMulNaive? (C.view m) (A.view m) (B.view m) = some (mzedMulNaiveAcc (mzedSetUi (C.view m) 0#64) (A.view m) (B.view m)) := by
      unfold mzedMulNaive? mzedMulInit?
      rw [if_neg (by rintro (h | h); exacts [h h6, h h4]), if_neg (by rintro (h | h | h); exacts [h h5, h h7, h h8])]
      rfl
    show (WRes.unit, C.put m _) = (WRes.unit, C.put m ((mzedMulNaive? (C.view m) (A.view m) (B.view m)).getD (C.view m)))
    rw [e2]; rfl
  | addmulNaive C A B =>
    obtain ⟨h1, h2, h3, h4, h5, h6, h7, h8, h9, h10⟩ := h
    have := (eff_mulNaiveAcc (m := m) h1 h2 h3 h6 h7 h8 h9 h10 _ (Hdr.view C m)).1
    rw [put_view] at this
    unfold WCall.code WCall.effect
    rw [alone_andThen, this]
    have e2 : mzedAddmulNaive? (C.view m) (A.view m) (B.view m) = some (mzedMulNaiveAcc (C.view m) (A.view m) (B.view m)) := by
      unfold mzedAddmulNaive? mzedMulInit?
      rw [if_neg (by rintro (h | h); exacts [h h6, h h4]), if_neg (by rintro (h | h | h); exacts [h h5, h h7, h h8])]
      rfl
    show (WRes.unit, C.put m _) = (WRes.unit, C.put m ((mzedAddmulNaive? (C.view m) (A.view m) (B.view m)).getD (C.view m)))
    rw [e2]; rfl
  | trsmUpperNaive U B =>
    obtain ⟨h1, h2, h3, h4, h5, h6⟩ := h
    have := (eff_trsmUpper (m := m) h1 h2 h3 h4 h5 h6 _ (Hdr.view B m)).1
    rw [put_view] at this
    unfold WCall.code WCall.effect
    rw [alone_andThen, this]; rfl
  | trsmLowerNaive L B =>
    obtain ⟨h1, h2, h3, h4, h5, h6⟩ := h
    have := (eff_trsmLower (m := m) h1 h2 h3 h4 h5 h6 _ (Hdr.view B m)).1
    rw [put_view] at this
    unfold WCall.code WCall.effect
    rw [alone_andThen, this]; rfl
  | echelonizeNaive A full =>
    have := (alone_echelonize (m := m) hl h full (Hdr.view A m) A.ncols (le_refl _)).1
    rw [put_view] at this
    unfold WCall.code WCall.effect
    rw [alone_andThen, this]; rfl

end M4rie
