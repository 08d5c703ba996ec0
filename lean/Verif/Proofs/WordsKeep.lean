import Verif.Proofs.WordsMat

/-! # Sequences of word accesses: which words a call touches -/

namespace M4rie
open M4rie.Spec Spec.Code Handle

section
variable {A B : Handle} {R W : Set Loc}

theorem keeps_wrC {r j : Nat} (hW : A.loc r j ∈ W) (v : Word) : (wrC A r j v).Keeps R W := ⟨hW, trivial⟩
theorem keeps_updC {r j : Nat} (hR : A.loc r j ∈ R) (hW : A.loc r j ∈ W) (f : Word → Word) : (updC A r j f).Keeps R W := ⟨hR, fun _ => ⟨hW, trivial⟩⟩
theorem keeps_xorC {ar br j : Nat} (hB : B.loc br j ∈ R) (hR : A.loc ar j ∈ R) (hW : A.loc ar j ∈ W) (f : Word → Word) :
    (xorC A ar B br j f).Keeps R W := ⟨hB, fun _ => ⟨hR, fun _ => ⟨hW, trivial⟩⟩⟩
theorem keeps_readElem {r c : Nat} (h : A.elemWord r c ∈ R) : (readElemC A r c).Keeps R W := ⟨h, fun _ => trivial⟩
theorem keeps_addElem {r c : Nat} (hR : A.elemWord r c ∈ R) (hW : A.elemWord r c ∈ W) (x : Word) : (addElemC A r c x).Keeps R W := keeps_updC hR hW _
theorem keeps_writeElem {r c : Nat} (hR : A.elemWord r c ∈ R) (hW : A.elemWord r c ∈ W) (x : Word) : (writeElemC A r c x).Keeps R W :=
  keeps_andThen (keeps_updC hR hW _) fun _ => keeps_addElem hR hW x

theorem keeps_addMid {ar br : Nat} (hB : ∀ j < A.width, B.loc br j ∈ R) (hR : ∀ j < A.width, A.loc ar j ∈ R) (hW : ∀ j < A.width, A.loc ar j ∈ W) :
    ∀ (n j : Nat), j + n ≤ A.width → (addMidC A ar B br j n).Keeps R W
  | 0, _, _ => trivial
  | n + 1, j, h => keeps_andThen (keeps_xorC (hB j (by omega)) (hR j (by omega)) (hW j (by omega)) _) fun _ => keeps_addMid hB hR hW n (j + 1) (by omega)

theorem keeps_addRow {ar br : Nat} (hB : ∀ j < A.width, B.loc br j ∈ R) (hR : ∀ j < A.width, A.loc ar j ∈ R) (hW : ∀ j < A.width, A.loc ar j ∈ W)
    (hw : 0 < A.w) {s : Nat} (hs : s < A.ncols) : (addRowC A ar B br s).Keeps R W := by
  have hb := elem_lt hw hs
  unfold addRowC
  dsimp only
  split
  · exact keeps_andThen (keeps_xorC (hB _ hb) (hR _ hb) (hW _ hb) _) fun _ =>
      keeps_andThen (keeps_addMid hB hR hW _ _ (by omega)) fun _ => keeps_xorC (hB _ (by omega)) (hR _ (by omega)) (hW _ (by omega)) _
  · exact keeps_xorC (hB _ hb) (hR _ hb) (hW _ hb) _

section
variable {word : List LaneOp → Nat → Code Word} {wr : Nat → Word → Code Unit} {N : Nat}

theorem keeps_seqBody (hword : ∀ ops, ∀ j < N, (word ops j).Keeps R W) (hwr : ∀ j < N, ∀ v, (wr j v).Keeps R W) :
    ∀ (code : List (List LaneOp)) (j : Nat), j + code.length ≤ N → (seqBodyC word wr j code).Keeps R W
  | [], _, _ => trivial
  | o :: rest, j, h => by
    have h' : j + (rest.length + 1) ≤ N := h
    exact keeps_andThen (hword o j (by omega)) fun t => keeps_andThen (hwr j (by omega) t) fun _ => keeps_seqBody hword hwr rest (j + 1) (by omega)

theorem keeps_unrolledBody (hword : ∀ ops, ∀ j < N, (word ops j).Keeps R W) (hwr : ∀ j < N, ∀ v, (wr j v).Keeps R W)
    (code : List (List LaneOp)) (j : Nat) (h : j + code.length ≤ N) : (unrolledBodyC word wr j code).Keeps R W := by
  unfold unrolledBodyC
  split
  · next o o' =>
    have h' : j + 2 ≤ N := h
    exact keeps_andThen (hword o j (by omega)) fun t => keeps_andThen (hword o' (j + 1) (by omega)) fun t' =>
      keeps_andThen (hwr j (by omega) t) fun _ => hwr (j + 1) (by omega) t'
  · exact keeps_seqBody hword hwr code j h

theorem keeps_unrolledLoop {b : Nat → Code Unit} {n : Nat} (hb : ∀ j, j + n ≤ N → (b j).Keeps R W) : ∀ (fuel j : Nat), j ≤ N - 1 →
    (unrolledLoopC b n N fuel j).KeepsR R W fun j => j ≤ N - 1
  | 0, _, h => h
  | fuel + 1, j, h => by
    unfold unrolledLoopC
    split
    · exact (hb j (by omega)).keepsR.andThen fun _ _ => keeps_unrolledLoop hb fuel _ (by omega)
    · exact h

theorem keeps_singleLoop {b : Nat → Code Unit} (hb : ∀ j < N, (b j).Keeps R W) : ∀ (fuel j : Nat), j ≤ N - 1 → N - 1 - j ≤ fuel →
    (singleLoopC b N fuel j).KeepsR R W fun j => j = N - 1
  | 0, j, h, h' => by show j = N - 1; omega
  | fuel + 1, j, h, h' => by
    unfold singleLoopC
    split
    · exact (hb j (by omega)).keepsR.andThen fun _ _ => keeps_singleLoop hb fuel _ (by omega) (by omega)
    · show j = N - 1; omega

theorem keeps_midLoops (hword : ∀ ops, ∀ j < N, (word ops j).Keeps R W) (hwr : ∀ j < N, ∀ v, (wr j v).Keeps R W) (code : LaneCode) (j : Nat) (h : j ≤ N - 1) :
    (midLoopsC word wr code N j).KeepsR R W fun j => j = N - 1 :=
  (keeps_unrolledLoop (fun j hj => keeps_unrolledBody hword hwr code.unrolled j hj) N j h).andThen fun a ha =>
    keeps_singleLoop (fun j hj => keeps_andThen (hword _ j hj) fun t => hwr j hj t) N a ha (by omega)
end

theorem keeps_rescaleLast {r j : Nat} (hR : A.loc r j ∈ R) (hW : A.loc r j ∈ W) (mul : Word → Word) : ∀ (ops : List LaneOp) (t : Word),
    (rescaleLastC mul A r j ops t).Keeps R W
  | [], _ => keeps_wrC hW _
  | _ :: ops, _ => ⟨hR, fun _ => keeps_rescaleLast hR hW mul ops _⟩

theorem keeps_rescaleWords {r : Nat} (hR : ∀ j < A.width, A.loc r j ∈ R) (hW : ∀ j < A.width, A.loc r j ∈ W) (hw : 0 < A.w) {s : Nat} (hs : s < A.ncols)
    (mul : Word → Word) (code : LaneCode) : (rescaleWordsC mul code A r s).Keeps R W := by
  have hb := elem_lt hw hs
  have hu := fun f => keeps_updC (hR _ hb) (hW _ hb) f
  unfold rescaleWordsC
  refine ⟨hR _ hb, fun a0 => ?_⟩
  dsimp only
  split
  · exact keeps_andThen (hu _) fun _ => hu _
  · refine keeps_andThen (hu _) fun _ => keeps_andThen (hu _) fun _ => ?_
    refine (keeps_midLoops (word := fun ops j => .read (A.loc r j) fun a => .done (laneRun mul ops a 0#64)) (wr := wrC A r) (fun ops j hj => ⟨hR j hj, fun _ => trivial⟩) (fun j hj v => keeps_wrC (hW j hj) v) code _ (by omega)).andThenK fun j hj => ?_
    exact ⟨hR j (by omega), fun a => keeps_rescaleLast (hR j (by omega)) (hW j (by omega)) mul _ _⟩

theorem elem_mem_row {r c : Nat} (hw : 0 < A.w) (hc : c < A.ncols) {S : Set Loc} (h : ∀ j < A.width, A.loc r j ∈ S) : A.elemWord r c ∈ S := h _ (elem_lt hw hc)

theorem keeps_rescaleElems {r : Nat} (hR : ∀ j < A.width, A.loc r j ∈ R) (hW : ∀ j < A.width, A.loc r j ∈ W) (hw : 0 < A.w) (mul : Word → Word) :
    ∀ (n j : Nat), j + n ≤ A.ncols → (rescaleElemsC mul A r n j).Keeps R W
  | 0, _, _ => trivial
  | n + 1, j, h => keeps_andThen (keeps_readElem (elem_mem_row hw (by omega) hR)) fun x =>
      keeps_andThen (keeps_writeElem (elem_mem_row hw (by omega) hR) (elem_mem_row hw (by omega) hW) _) fun _ => keeps_rescaleElems hR hW hw mul n (j + 1) (by omega)

theorem keeps_rescaleRow {r : Nat} (hR : ∀ j < A.width, A.loc r j ∈ R) (hW : ∀ j < A.width, A.loc r j ∈ W) (hw : 0 < A.w) {s : Nat} (hs : s < A.ncols)
    (x : Word) : (rescaleRowC A r s x).Keeps R W := by
  unfold rescaleRowC
  split
  · exact keeps_rescaleWords hR hW hw hs _ _
  · exact keeps_rescaleElems hR hW hw _ _ _ (by omega)

theorem keeps_addmulLast {ar br j : Nat} (hB : B.loc br j ∈ R) (hR : A.loc ar j ∈ R) (hW : A.loc ar j ∈ W) (mul : Word → Word) : ∀ (ops : List LaneOp),
    (addmulLastC mul A ar B br j ops).Keeps R W
  | [] => trivial
  | _ :: ops => keeps_andThen (keeps_xorC hB hR hW _) fun _ => keeps_addmulLast hB hR hW mul ops

theorem keeps_addmulWords {ar br : Nat} (hB : ∀ j < A.width, B.loc br j ∈ R) (hR : ∀ j < A.width, A.loc ar j ∈ R) (hW : ∀ j < A.width, A.loc ar j ∈ W)
    (hw : 0 < A.w) {s : Nat} (hs : s < A.ncols) (mul : Word → Word) (code : LaneCode) : (addmulWordsC mul code A ar B br s).Keeps R W := by
  have hb := elem_lt hw hs
  have hu := fun f => keeps_updC (hR _ hb) (hW _ hb) f
  unfold addmulWordsC
  refine ⟨hB _ hb, fun f0 => ⟨hR _ hb, fun t0 => ?_⟩⟩
  dsimp only
  split
  · exact keeps_andThen (hu _) fun _ => hu _
  · refine keeps_andThen (keeps_wrC (hW _ hb) _) fun _ => ?_
    refine (keeps_midLoops (word := fun ops j => .read (B.loc br j) fun f => .read (A.loc ar j) fun t => .done (laneRun mul ops f t)) (wr := wrC A ar)
      (fun ops j hj => ⟨hB j hj, fun _ => ⟨hR j hj, fun _ => trivial⟩⟩) (fun j hj v => keeps_wrC (hW j hj) v) code _ (by omega)).andThenK fun j hj => ?_
    exact keeps_addmulLast (hB j (by omega)) (hR j (by omega)) (hW j (by omega)) mul _

theorem keeps_addmulElems {ar br : Nat} (hB : ∀ j < A.width, B.loc br j ∈ R) (hR : ∀ j < A.width, A.loc ar j ∈ R) (hW : ∀ j < A.width, A.loc ar j ∈ W)
    (hw : 0 < A.w) (hBw : B.w = A.w) (mul : Word → Word) : ∀ (n j : Nat), j + n ≤ A.ncols → (addmulElemsC mul A ar B br n j).Keeps R W
  | 0, _, _ => trivial
  | n + 1, j, h => keeps_andThen (keeps_readElem (by unfold Handle.elemWord; rw [hBw]; exact hB _ (elem_lt hw (by omega)))) fun x =>
      keeps_andThen (keeps_addElem (elem_mem_row hw (by omega) hR) (elem_mem_row hw (by omega) hW) _) fun _ =>
        keeps_addmulElems hB hR hW hw hBw mul n (j + 1) (by omega)

theorem keeps_addMultipleOfRow {ar br : Nat} (hB : ∀ j < A.width, B.loc br j ∈ R) (hR : ∀ j < A.width, A.loc ar j ∈ R) (hW : ∀ j < A.width, A.loc ar j ∈ W)
    (hw : 0 < A.w) (hBw : B.w = A.w) (hBn : B.ncols = A.ncols) {s : Nat} (hs : s < A.ncols) (x : Word) : (addMultipleOfRowC A ar B br x s).Keeps R W := by
  unfold addMultipleOfRowC
  split
  · trivial
  split
  · exact keeps_addRow hB hR hW hw hs
  split
  · exact keeps_addmulWords hB hR hW hw hs _ _
  · exact keeps_addmulElems hB hR hW hw hBw _ _ _ (by omega)

/-- within one matrix -/
theorem keeps_addMultipleOfRow_same (hR : A.words ⊆ R) (hW : A.words ⊆ W) {ar br : Nat} (har : ar < A.nrows) (hbr : br < A.nrows) (hw : 0 < A.w) {s : Nat}
    (hs : s < A.ncols) (x : Word) : (addMultipleOfRowC A ar A br x s).Keeps R W :=
  keeps_addMultipleOfRow (fun _ hj => hR (loc_mem hbr hj)) (fun _ hj => hR (loc_mem har hj)) (fun _ hj => hW (loc_mem har hj)) hw rfl rfl hs x

theorem elem_mem {r c : Nat} (hw : 0 < A.w) (hr : r < A.nrows) (hc : c < A.ncols) : A.elemWord r c ∈ A.words := loc_mem hr (elem_lt hw hc)

theorem keeps_setUi {lib : WordLib} (hl : lib.OK) (hw : 0 < A.w) (x : Word) : (setUiC lib A x).Keeps A.words A.words := by
  unfold setUiC
  refine keeps_andThen (hl.clearKeeps A) fun _ => ?_
  split
  · trivial
  · exact keeps_forC fun i hi => keeps_writeElem (elem_mem hw (by omega) (by omega)) (elem_mem hw (by omega) (by omega)) x

theorem keeps_mulNaiveAcc {C : Handle} (hw : 0 < C.w) (hAw : A.w = C.w) (hBw : B.w = C.w) (h1 : A.ncols = B.nrows) (h2 : C.nrows = A.nrows)
    (h3 : C.ncols = B.ncols) : (mulNaiveAccC C A B).Keeps (C.words ∪ (A.words ∪ B.words)) C.words :=
  keeps_forC fun i hi => keeps_forC fun j hj => keeps_forC fun k hk =>
    keeps_andThen (keeps_readElem (Or.inr (Or.inl (elem_mem (by omega) (by omega) hk)))) fun a =>
    keeps_andThen (keeps_readElem (Or.inr (Or.inr (elem_mem (by omega) (by omega) (by omega))))) fun b =>
    keeps_addElem (Or.inl (elem_mem hw hi hj)) (elem_mem hw hi hj) _

theorem keeps_trsmUpper {U : Handle} (hw : 0 < B.w) (hc : 0 < B.ncols) (hUw : U.w = B.w) (hr : U.nrows = B.nrows) (hn : U.ncols = B.nrows) :
    (trsmUpperNaiveC U B).Keeps (B.words ∪ U.words) B.words :=
  keeps_forC fun t ht => keeps_andThen
    (keeps_forC fun d hd => keeps_andThen (keeps_readElem (Or.inr (elem_mem (by omega) (by omega) (by omega)))) fun x =>
      keeps_addMultipleOfRow_same Set.subset_union_left (le_refl _) (by omega) (by omega) hw hc x) fun _ =>
    keeps_andThen (keeps_readElem (Or.inr (elem_mem (by omega) (by omega) (by omega)))) fun x =>
      keeps_rescaleRow (fun j hj => Or.inl (loc_mem (by omega) hj)) (fun j hj => loc_mem (by omega) hj) hw hc _

theorem keeps_trsmLower {L : Handle} (hw : 0 < B.w) (hc : 0 < B.ncols) (hLw : L.w = B.w) (hr : L.nrows = B.nrows) (hn : L.ncols = B.nrows) :
    (trsmLowerNaiveC L B).Keeps (B.words ∪ L.words) B.words :=
  keeps_forC fun i hi => keeps_andThen
    (keeps_forC fun k hk => keeps_andThen (keeps_readElem (Or.inr (elem_mem (by omega) (by omega) (by omega)))) fun x =>
      keeps_addMultipleOfRow_same Set.subset_union_left (le_refl _) (by omega) (by omega) hw hc x) fun _ =>
    keeps_andThen (keeps_readElem (Or.inr (elem_mem (by omega) (by omega) (by omega)))) fun x =>
      keeps_rescaleRow (fun j hj => Or.inl (loc_mem (by omega) hj)) (fun j hj => loc_mem (by omega) hj) hw hc _

theorem keeps_findPivot (hw : 0 < A.w) {c : Nat} (hc : c < A.ncols) : ∀ (n r : Nat), r + n ≤ A.nrows →
    (findPivotC A c n r).KeepsR A.words A.words fun p => ∀ q ∈ p, q.1 < A.nrows ∧ r ≤ q.1
  | 0, _, _ => fun _ h => by cases h
  | n + 1, r, h => by
    unfold findPivotC
    refine (keeps_readElem (elem_mem hw (by omega) hc)).keepsR.andThen fun x _ => ?_
    split
    · intro q hq
      cases hq
      exact ⟨by show r < _; omega, le_refl _⟩
    · have := keeps_findPivot hw hc n (r + 1) (by omega)
      have mono : ∀ (p : Code (Option (Nat × Word))), (p.KeepsR A.words A.words fun p => ∀ q ∈ p, q.1 < A.nrows ∧ r + 1 ≤ q.1) →
          p.KeepsR A.words A.words fun p => ∀ q ∈ p, q.1 < A.nrows ∧ r ≤ q.1 := by
        intro p hp
        induction p with
        | done a => exact fun q hq => ⟨(hp q hq).1, by have := (hp q hq).2; omega⟩
        | read l k ih => exact ⟨hp.1, fun v => ih v (hp.2 v)⟩
        | write l v k ih => exact ⟨hp.1, ih hp.2⟩
      exact mono _ this

theorem keeps_elimRows (hw : 0 < A.w) {s c : Nat} (hs : s < A.nrows) (hc : c < A.ncols) (e : Nat) : (elimRowsC A s c e).Keeps A.words A.words := by
  refine keeps_forC fun k hk => ?_
  dsimp only
  split
  · trivial
  · refine keeps_andThen (keeps_readElem (elem_mem hw (by omega) hc)) fun x => ?_
    split
    · trivial
    · exact keeps_addMultipleOfRow_same (le_refl _) (le_refl _) (by omega) hs hw hc x

theorem keeps_echelonizeCol {lib : WordLib} (hl : lib.OK) (hw : 0 < A.w) (full : Bool) {c s : Nat} (hc : c < A.ncols) (hs : s ≤ A.nrows) :
    (echelonizeColC lib A full c s).KeepsR A.words A.words fun s => s ≤ A.nrows := by
  unfold echelonizeColC
  refine (keeps_findPivot hw hc _ _ (by omega)).andThen fun p hp => ?_
  split
  · exact hs
  · next r x =>
    obtain ⟨h1, h2⟩ := hp (r, x) rfl
    have h1' : r < A.nrows := h1
    have h2' : s ≤ r := h2
    refine (keeps_rescaleRow (fun j hj => loc_mem h1' hj) (fun j hj => loc_mem h1' hj) hw hc _).keepsR.andThen fun _ _ => ?_
    have sub : A.rowWords r ∪ A.rowWords s ⊆ A.words := Set.union_subset (row_sub h1') (row_sub (by omega))
    refine (keeps_mono (hl.swapKeeps A r s h1' (by omega)) sub sub).keepsR.andThen fun _ _ => ?_
    refine (keeps_elimRows hw (by omega) hc _).keepsR.andThen fun _ _ => ?_
    show s + 1 ≤ _; omega

theorem keeps_echelonize {lib : WordLib} (hl : lib.OK) (hw : 0 < A.w) (full : Bool) : ∀ n ≤ A.ncols,
    (echelonizeNaiveC lib A full n).KeepsR A.words A.words fun s => s ≤ A.nrows
  | 0, _ => Nat.zero_le _
  | n + 1, h => (keeps_echelonize hl hw full n (by omega)).andThen fun _ hs => keeps_echelonizeCol hl hw full (by omega) hs

end

/-- a call keeps to its words -/
theorem call_keeps {lib : WordLib} (hl : lib.OK) (c : WCall) (h : c.Ok) : (c.code lib).Keeps c.uses c.writes := by
  have fin : ∀ {α : Type} {p : Code α} {f : α → WRes} {R W : Set Loc}, p.Keeps R W → (p.andThen fun a => .done (f a)).Keeps R W :=
    fun hp => keeps_andThen hp fun _ => trivial
  cases c with
  | readElem A r c => exact fin (keeps_readElem (Or.inr rfl))
  | writeElem A r c x => exact fin (keeps_writeElem (Or.inl rfl) rfl x)
  | addElem A r c x => exact fin (keeps_addElem (Or.inl rfl) rfl x)
  | addRow A ar B br s =>
    obtain ⟨hw, ha, hb, hs, hn, hBw, hd⟩ := h
    have hwid : B.width = A.width := by unfold Handle.width; rw [hn, hBw]
    exact fin (keeps_addRow (fun j hj => Or.inr (loc_mem_row (by omega))) (fun j hj => Or.inl (loc_mem_row hj)) (fun j hj => loc_mem_row hj) hw hs)
  | rescaleRow A r s x => exact fin (keeps_rescaleRow (fun j hj => Or.inl (loc_mem_row hj)) (fun j hj => loc_mem_row hj) h.1 h.2.2 x)
  | addMultipleOfRow A ar B br x s =>
    obtain ⟨hw, ha, hb, hs, hn, hBw, hd⟩ := h
    have hwid : B.width = A.width := by unfold Handle.width; rw [hn, hBw]
    exact fin (keeps_addMultipleOfRow (fun j hj => Or.inr (loc_mem_row (by omega))) (fun j hj => Or.inl (loc_mem_row hj)) (fun j hj => loc_mem_row hj) hw hBw hn hs x)
  | rowSwap A a b => exact fin (keeps_mono (hl.swapKeeps A a b h.1 h.2) Set.subset_union_left (le_refl _))
  | setUi A x => exact fin (keeps_mono (keeps_setUi hl h x) Set.subset_union_left (le_refl _))
  | mulNaive C A B =>
    obtain ⟨h1, h2, h3, h4, h5, h6, h7, h8, h9, h10⟩ := h
    exact fin (keeps_andThen (keeps_mono (keeps_setUi hl h1 _) Set.subset_union_left (le_refl _)) fun _ => keeps_mulNaiveAcc h1 h2 h3 h6 h7 h8)
  | addmulNaive C A B =>
    obtain ⟨h1, h2, h3, h4, h5, h6, h7, h8, h9, h10⟩ := h
    exact fin (keeps_mulNaiveAcc h1 h2 h3 h6 h7 h8)
  | trsmUpperNaive U B =>
    obtain ⟨h1, h2, h3, h4, h5, h6⟩ := h
    exact fin (keeps_trsmUpper h1 h2 h3 h4 h5)
  | trsmLowerNaive L B =>
    obtain ⟨h1, h2, h3, h4, h5, h6⟩ := h
    exact fin (keeps_trsmLower h1 h2 h3 h4 h5)
  | echelonizeNaive A full => exact fin (keeps_mono (keeps_echelonize hl h full A.ncols (le_refl _)).keeps Set.subset_union_left (le_refl _))

theorem thread_keeps {lib : WordLib} (hl : lib.OK) : ∀ (cs : List WCall), (∀ c ∈ cs, c.Ok) →
    (threadC lib cs).Keeps (WCall.allUses cs) (WCall.allWrites cs)
  | [], _ => trivial
  | c :: cs, h => by
    have s1 : WCall.allUses cs ⊆ WCall.allUses (c :: cs) := fun l ⟨x, hx, hl⟩ => ⟨x, List.mem_cons_of_mem _ hx, hl⟩
    have s2 : WCall.allWrites cs ⊆ WCall.allWrites (c :: cs) := fun l ⟨x, hx, hl⟩ => ⟨x, List.mem_cons_of_mem _ hx, hl⟩
    have s3 : c.uses ⊆ WCall.allUses (c :: cs) := fun l hl => ⟨c, List.mem_cons_self, hl⟩
    have s4 : c.writes ⊆ WCall.allWrites (c :: cs) := fun l hl => ⟨c, List.mem_cons_self, hl⟩
    exact keeps_andThen (keeps_mono (call_keeps hl c (h c List.mem_cons_self)) s3 s4) fun _ =>
      keeps_andThen (keeps_mono (thread_keeps hl cs fun x hx => h x (List.mem_cons_of_mem _ hx)) s1 s2) fun _ => trivial

theorem thread_alone {lib : WordLib} (hl : lib.OK) : ∀ (cs : List WCall), (∀ c ∈ cs, c.Ok) → ∀ m, (threadC lib cs).alone m = WCall.serial cs m
  | [], _, _ => rfl
  | c :: cs, h, m => by
    unfold threadC WCall.serial
    rw [alone_andThen, call_alone hl c (h c List.mem_cons_self), alone_andThen, thread_alone hl cs fun x hx => h x (List.mem_cons_of_mem _ hx)]
    rfl

theorem prog_keeps {α : Type} {lib : WordLib} (hl : lib.OK) (p : WProg α) (h : ∀ c ∈ p.calls, c.Ok) : (p.code lib).Keeps p.uses p.writes := by
  induction p with
  | ret a => trivial
  | call c k ih =>
    have hc : c ∈ (WProg.call c k).calls := Or.inl rfl
    have hk : ∀ r, ∀ x ∈ (k r).calls, x ∈ (WProg.call c k).calls := fun r x hx => Or.inr ⟨r, hx⟩
    refine keeps_andThen (keeps_mono (call_keeps hl c (h c hc)) (fun l hl => ⟨c, hc, hl⟩) (fun l hl => ⟨c, hc, hl⟩)) fun r => ?_
    exact keeps_mono (ih r fun x hx => h x (hk r x hx)) (fun l ⟨x, hx, hl⟩ => ⟨x, hk r x hx, hl⟩) (fun l ⟨x, hx, hl⟩ => ⟨x, hk r x hx, hl⟩)

theorem prog_alone {α : Type} {lib : WordLib} (hl : lib.OK) (p : WProg α) (h : ∀ c ∈ p.calls, c.Ok) (m : Mem) : (p.code lib).alone m = p.serial m := by
  induction p generalizing m with
  | ret a => rfl
  | call c k ih =>
    unfold WProg.code WProg.serial
    rw [alone_andThen, call_alone hl c (h c (Or.inl rfl)), ih _ fun x hx => h x (Or.inr ⟨_, hx⟩)]

end M4rie
