import Verif.Proofs.Checked

/-! The checked algorithms are defined and do what the total ones do. -/

namespace M4rie.Chk
open M4rie M4rie.Spec

/-- a packed `m × n` matrix over `ff` -/
def Dm (ff : Gf2e) [IsField ff] (m n fid : Nat) (A : Mzed) : Prop :=
  ∃ X : Mat ff, A = X.pack ∧ X.nrows = m ∧ X.ncols = n ∧ X.fid = fid

variable {ff : Gf2e} [IsField ff] {m n m' fid : Nat} {A B : Mzed}

theorem pack_dm (X : Mat ff) : Dm ff X.nrows X.ncols X.fid X.pack := ⟨X, rfl, rfl, rfl, rfl⟩

theorem rep_dm {M : Nat → Nat → Elem ff} (h : Rep A M) : Dm ff A.nrows A.ncols A.fid A := ⟨_, h.eq_pack', rfl, rfl, rfl⟩

theorem Dm.nrows_eq (h : Dm ff m n fid A) : A.nrows = m := by obtain ⟨X, rfl, rfl, rfl, rfl⟩ := h; rfl
theorem Dm.ncols_eq (h : Dm ff m n fid A) : A.ncols = n := by obtain ⟨X, rfl, rfl, rfl, rfl⟩ := h; rfl
theorem Dm.ff_eq (h : Dm ff m n fid A) : A.ff = ff := by obtain ⟨X, rfl, rfl, rfl, rfl⟩ := h; rfl
theorem Dm.w_eq (h : Dm ff m n fid A) : A.w = degreeToW ff.degree := by obtain ⟨X, rfl, rfl, rfl, rfl⟩ := h; rfl

theorem Dm.read (h : Dm ff m n fid A) (hs : Sm ff n) {i j : Nat} (hi : i < m) (hj : j < n) :
    ∃ x : Elem ff, mzedReadElem A i j = x.1 ∧ readElem A i j = some x.1 := by
  obtain ⟨X, rfl, rfl, rfl, rfl⟩ := h
  exact ⟨X.e i j, M4rie.read_pack X i j, read_pack X hi hj hs⟩

theorem Dm.write (h : Dm ff m n fid A) (hs : Sm ff n) {i j : Nat} (hi : i < m) (hj : j < n) (x : Elem ff) :
    writeElem A i j x.1 = some (mzedWriteElem A i j x.1) ∧ Dm ff m n fid (mzedWriteElem A i j x.1) := by
  obtain ⟨X, rfl, rfl, rfl, rfl⟩ := h
  rw [write_pack X hi hj hs, M4rie.write_pack]
  exact ⟨rfl, _, rfl, rfl, rfl, rfl⟩

theorem Dm.add (h : Dm ff m n fid A) (hs : Sm ff n) {i j : Nat} (hi : i < m) (hj : j < n) (x : Elem ff) :
    addElem A i j x.1 = some (mzedAddElem A i j x.1) ∧ Dm ff m n fid (mzedAddElem A i j x.1) := by
  obtain ⟨X, rfl, rfl, rfl, rfl⟩ := h
  rw [add_pack X hi hj hs, M4rie.add_pack]
  exact ⟨rfl, _, rfl, rfl, rfl, rfl⟩

theorem Dm.rescale (dbg : Bool) (h : Dm ff m n fid A) (hs : Sm ff n) {r s : Nat} (hi : r < m) (hj : s < n) (x : Elem ff) :
    rescaleRow dbg A r s x.1 = some (mzedRescaleRow A r s x.1) ∧ Dm ff m n fid (mzedRescaleRow A r s x.1) := by
  obtain ⟨X, rfl, rfl, rfl, rfl⟩ := h
  rw [rescaleRow_pack dbg X hi hj hs, rescale_pack X r s hj]
  exact ⟨rfl, _, rfl, rfl, rfl, rfl⟩

theorem Dm.addMul (dbg : Bool) (h : Dm ff m n fid A) (h' : Dm ff m' n fid B) (hs : Sm ff n) {ar br s : Nat} (hi : ar < m) (hb : br < m') (hj : s < n) (x : Elem ff) :
    addMultipleOfRow dbg A ar B br x.1 s = some (mzedAddMultipleOfRow A ar B br x.1 s) ∧ Dm ff m n fid (mzedAddMultipleOfRow A ar B br x.1 s) := by
  obtain ⟨X, rfl, rfl, rfl, rfl⟩ := h
  obtain ⟨Y, rfl, rfl, h1, h2⟩ := h'
  rw [addMul_pack dbg X Y hi hb hj h1.symm h2.symm hs, M4rie.addMul_pack X Y ar br s hj]
  exact ⟨rfl, _, rfl, rfl, rfl, rfl⟩

theorem Dm.swap (h : Dm ff m n fid A) {a b : Nat} (ha : a < m) (hb : b < m) :
    rowSwap A a b = some (mzedRowSwap A a b) ∧ Dm ff m n fid (mzedRowSwap A a b) := by
  obtain ⟨X, rfl, rfl, rfl, rfl⟩ := h
  rw [rowSwap_pack X ha hb, swapRows_pack]
  exact ⟨rfl, _, rfl, rfl, rfl, rfl⟩

theorem Dm.colSwap (h : Dm ff m n fid A) (hs : Sm ff n) {a b start stop : Nat} (ha : a < n) (hb : b < n) (h1 : start ≤ stop) (h2 : stop ≤ m) :
    colSwapInRows A a b start stop = some (mzedColSwapInRows A a b start stop) ∧ Dm ff m n fid (mzedColSwapInRows A a b start stop) := by
  obtain ⟨X, rfl, rfl, rfl, rfl⟩ := h
  rw [colSwap_pack X ha hb h1 h2 hs, swapColsIn_pack]
  exact ⟨rfl, _, rfl, rfl, rfl, rfl⟩

theorem Dm.clear (h : Dm ff m n fid A) : Dm ff m n fid { A with words := mzdClear A.nrows A.bitCols A.words } := by
  obtain ⟨X, rfl, rfl, rfl, rfl⟩ := h
  exact ⟨_, (pack_rep X).clear.eq_pack (B := X.pack) ⟨rfl, rfl, rfl⟩, rfl, rfl, rfl⟩

/-- the inverse -/
theorem inv_eq (x : Elem ff) : ∃ y : Elem ff, gf2eInv ff x.1 = y.1 ∧ inv ff x.1 = some y.1 := ⟨x⁻¹, rfl, inv_elem x⟩

/-! ### whole matrices -/

theorem setUi_eq (h : Dm ff m n fid A) (hs : Sm ff n) (x : Elem ff) :
    setUi A x.1 = some (mzedSetUi A x.1) ∧ Dm ff m n fid (mzedSetUi A x.1) := by
  unfold setUi mzedSetUi
  simp only []
  by_cases h0 : x.1 = 0#64
  · rw [if_pos h0, if_pos h0]; exact ⟨rfl, h.clear⟩
  · rw [if_neg h0, if_neg h0]
    refine forC_eq (fun _ A => Dm ff m n fid A) _ _ _ _ h.clear ?_
    intro i B hi hB
    have h1 : A.nrows = m := h.nrows_eq
    have h2 : A.ncols = n := h.ncols_eq
    exact hB.write hs (by omega) (by omega) x

theorem mulNaive_eq {C : Mzed} {l : Nat} (hC : Dm ff m n fid C) (hA : Dm ff m l fid A) (hB : Dm ff l n fid B) (hs : Sm ff n) (hs' : Sm ff l) :
    mulNaive C A B = some (mzedMulNaiveAcc C A B) ∧ Dm ff m n fid (mzedMulNaiveAcc C A B) := by
  unfold mulNaive mzedMulNaiveAcc
  rw [hC.nrows_eq]
  refine forC_eq (fun _ C => Dm ff m n fid C) _ _ _ _ hC ?_
  intro i C hi hC
  rw [hC.ncols_eq]
  refine forC_eq (fun _ C => Dm ff m n fid C) _ _ _ _ hC ?_
  intro j C hj hC
  rw [hA.ncols_eq]
  refine forC_eq (fun _ C => Dm ff m n fid C) _ _ _ _ hC ?_
  intro k C hk hC
  obtain ⟨x, e1, e2⟩ := hA.read hs' hi hk
  obtain ⟨y, e3, e4⟩ := hB.read hs hk hj
  rw [e1, e2, e3, e4, Option.bind_some, Option.bind_some, hC.ff_eq, fmul_elem, Option.bind_some, ← Elem.mul_val]
  exact hC.add hs hi hj _

theorem rescaleAll_eq (dbg : Bool) (h : Dm ff m n fid A) (hs : Sm ff n) (hn : 0 < n) (x : Elem ff) :
    rescaleAll dbg x.1 m A = some (forN (fun i C => mzedRescaleRow C i 0 x.1) m A) :=
  (forC_eq (fun _ C => Dm ff m n fid C) _ _ _ _ h (fun _ _ hi hC => hC.rescale dbg hs hi hn x)).1

/-! ### Gaussian elimination -/

theorem findPivot_eq (h : Dm ff m n fid A) (hs : Sm ff n) {c : Nat} (hc : c < n) : ∀ (k r : Nat), r + k ≤ m →
    findPivot A c k r = some (M4rie.findPivot A c k r) ∧ ∀ i, M4rie.findPivot A c k r = some i → r ≤ i ∧ i < r + k := by
  intro k
  induction k with
  | zero => intro r _; exact ⟨rfl, by intro i hi; simp [M4rie.findPivot] at hi⟩
  | succ k ih =>
    intro r hr
    obtain ⟨x, e1, e2⟩ := h.read hs (show r < m by omega) hc
    unfold findPivot M4rie.findPivot
    rw [e1, e2, Option.bind_some]
    by_cases h0 : x.1 ≠ 0#64
    · rw [if_pos h0, if_pos h0]; exact ⟨rfl, by intro i hi; cases hi; omega⟩
    · rw [if_neg h0, if_neg h0]
      obtain ⟨h1, h2⟩ := ih (r + 1) (by omega)
      exact ⟨h1, fun i hi => by have := h2 i hi; omega⟩

theorem elimRows_eq (dbg : Bool) (h : Dm ff m n fid A) (hs : Sm ff n) {startRow c : Nat} (e : Nat) (hr : startRow < m) (hc : c < n) :
    elimRows dbg A startRow c e = some (M4rie.elimRows A startRow c e) ∧ Dm ff m n fid (M4rie.elimRows A startRow c e) := by
  unfold elimRows M4rie.elimRows
  rw [h.nrows_eq]
  refine forC_eq (fun _ A => Dm ff m n fid A) _ _ _ _ h ?_
  intro k A hk hA
  simp only []
  by_cases h0 : e + k = startRow
  · rw [if_pos h0, if_pos h0]; exact ⟨rfl, hA⟩
  · rw [if_neg h0, if_neg h0]
    obtain ⟨x, e1, e2⟩ := hA.read hs (show e + k < m by omega) hc
    rw [e1, e2, Option.bind_some]
    by_cases h0 : x.1 = 0#64
    · rw [if_pos h0, if_pos h0]; exact ⟨rfl, hA⟩
    · rw [if_neg h0, if_neg h0]
      exact hA.addMul dbg hA hs (by omega) hr hc x

theorem echelonizeCol_eq (dbg full : Bool) {c startRow : Nat} (h : Dm ff m n fid A) (hs : Sm ff n) (hr : startRow ≤ m) (hc : c < n) :
    echelonizeCol dbg full c (A, startRow) = some (M4rie.echelonizeCol full c (A, startRow)) ∧
      Dm ff m n fid (M4rie.echelonizeCol full c (A, startRow)).1 ∧ (M4rie.echelonizeCol full c (A, startRow)).2 ≤ m := by
  unfold echelonizeCol M4rie.echelonizeCol
  simp only []
  rw [h.nrows_eq]
  obtain ⟨h1, h2⟩ := findPivot_eq h hs hc (m - startRow) startRow (by omega)
  rw [h1, Option.bind_some]
  cases hp : M4rie.findPivot A c (m - startRow) startRow with
  | none => exact ⟨rfl, h, hr⟩
  | some r =>
    obtain ⟨h3, h4⟩ := h2 r hp
    obtain ⟨x, e1, e2⟩ := h.read hs (show r < m by omega) hc
    obtain ⟨y, e3, e4⟩ := inv_eq x
    obtain ⟨r1, r2⟩ := h.rescale dbg hs (show r < m by omega) hc y
    obtain ⟨s1, s2⟩ := r2.swap (show r < m by omega) (show startRow < m by omega)
    obtain ⟨t1, t2⟩ := elimRows_eq dbg s2 hs (if full then 0 else startRow + 1) (show startRow < m by omega) hc
    simp only []
    rw [e1, e2, Option.bind_some, h.ff_eq, e3, e4, Option.bind_some, r1, Option.bind_some, s1, Option.bind_some, t1, Option.bind_some]
    exact ⟨rfl, t2, by show startRow + 1 ≤ m; omega⟩

theorem echelonizeNaive_eq (dbg full : Bool) (h : Dm ff m n fid A) (hs : Sm ff n) :
    echelonizeNaive dbg A full = some (mzedEchelonizeNaive A full) := by
  unfold echelonizeNaive mzedEchelonizeNaive
  rw [h.ncols_eq]
  refine (forC_eq (fun _ (s : Mzed × Nat) => Dm ff m n fid s.1 ∧ s.2 ≤ m) _ _ _ _ ⟨h, by simp⟩ ?_).1
  rintro c ⟨A, r⟩ hc ⟨hA, hr⟩
  exact echelonizeCol_eq dbg full hA hs hr hc

/-! ### triangular solving -/

theorem trsmAssert_eq (dbg : Bool) {L : Mzed} (hL : Dm ff m m fid L) (hB : Dm ff m n fid B) : trsmAssert dbg L B = some () := by
  have e1 : L.fid = B.fid := by obtain ⟨X, rfl, -, -, rfl⟩ := hL; obtain ⟨Y, rfl, -, -, e⟩ := hB; exact e.symm
  unfold trsmAssert
  exact if_neg fun h => h.2 ⟨e1, by rw [hL.nrows_eq, hL.ncols_eq], by rw [hB.nrows_eq, hL.ncols_eq]⟩

theorem trsmUpperNaive_eq (dbg : Bool) {U : Mzed} (hU : Dm ff m m fid U) (hB : Dm ff m n fid B) (hs : Sm ff n) (hs' : Sm ff m) (hn : 0 < n) :
    trsmUpperNaive dbg U B = some (mzedTrsmUpperLeftNaive U B) ∧ Dm ff m n fid (mzedTrsmUpperLeftNaive U B) := by
  unfold trsmUpperNaive mzedTrsmUpperLeftNaive
  rw [trsmAssert_eq dbg hU hB, Option.bind_some]
  simp only []
  rw [hB.nrows_eq]
  refine forC_eq (fun _ B => Dm ff m n fid B) _ _ _ _ hB ?_
  intro t B ht hB
  obtain ⟨i1, i2⟩ := forC_eq (fun _ B => Dm ff m n fid B) (fun d B => (readElem U (m - 1 - t) ((m - 1 - t) + 1 + d)).bind fun x =>
      addMultipleOfRow dbg B (m - 1 - t) B ((m - 1 - t) + 1 + d) x 0)
    (fun d B => mzedAddMultipleOfRow B (m - 1 - t) B ((m - 1 - t) + 1 + d) (mzedReadElem U (m - 1 - t) ((m - 1 - t) + 1 + d)) 0) (m - ((m - 1 - t) + 1)) B hB (by
      intro d B hd hB
      obtain ⟨x, e1, e2⟩ := hU.read hs' (show m - 1 - t < m by omega) (show (m - 1 - t) + 1 + d < m by omega)
      rw [e1, e2, Option.bind_some]
      exact hB.addMul dbg hB hs (by omega) (by omega) hn x)
  obtain ⟨x, e1, e2⟩ := hU.read hs' (show m - 1 - t < m by omega) (show m - 1 - t < m by omega)
  obtain ⟨y, e3, e4⟩ := inv_eq x
  rw [i1, Option.bind_some, e1, e2, Option.bind_some, hU.ff_eq, e3, e4, Option.bind_some]
  exact i2.rescale dbg hs (by omega) hn y

theorem trsmLowerNaive_eq (dbg : Bool) {L : Mzed} (hL : Dm ff m m fid L) (hB : Dm ff m n fid B) (hs : Sm ff n) (hs' : Sm ff m) (hn : 0 < n) :
    trsmLowerNaive dbg L B = some (mzedTrsmLowerLeftNaive L B) ∧ Dm ff m n fid (mzedTrsmLowerLeftNaive L B) := by
  unfold trsmLowerNaive mzedTrsmLowerLeftNaive
  rw [trsmAssert_eq dbg hL hB, Option.bind_some]
  simp only []
  rw [hB.nrows_eq]
  refine forC_eq (fun _ B => Dm ff m n fid B) _ _ _ _ hB ?_
  intro i B hi hB
  obtain ⟨i1, i2⟩ := forC_eq (fun _ B => Dm ff m n fid B) (fun k B => (readElem L i k).bind fun x => addMultipleOfRow dbg B i B k x 0)
    (fun k B => mzedAddMultipleOfRow B i B k (mzedReadElem L i k) 0) i B hB (by
      intro k B hk hB
      obtain ⟨x, e1, e2⟩ := hL.read hs' hi (show k < m by omega)
      rw [e1, e2, Option.bind_some]
      exact hB.addMul dbg hB hs hi (by omega) hn x)
  obtain ⟨x, e1, e2⟩ := hL.read hs' hi hi
  obtain ⟨y, e3, e4⟩ := inv_eq x
  rw [i1, Option.bind_some, e1, e2, Option.bind_some, hL.ff_eq, e3, e4, Option.bind_some]
  exact i2.rescale dbg hs hi hn y

/-! ### PLE -/

theorem plePivot_eq (h : Dm ff m n fid A) (hs : Sm ff n) {rowPos : Nat} (hr : rowPos ≤ m) : ∀ (k j : Nat), j + k ≤ n →
    plePivot A rowPos k j = some (M4rie.plePivot A rowPos k j) ∧
      ∀ p, M4rie.plePivot A rowPos k j = some p → rowPos ≤ p.1 ∧ p.1 < m ∧ j ≤ p.2 ∧ p.2 < n := by
  intro k
  induction k with
  | zero => intro j _; exact ⟨rfl, by intro p hp; simp [M4rie.plePivot] at hp⟩
  | succ k ih =>
    intro j hj
    obtain ⟨h1, h2⟩ := findPivot_eq h hs (show j < n by omega) (m - rowPos) rowPos (by omega)
    unfold plePivot M4rie.plePivot
    rw [h.nrows_eq, h1, Option.bind_some]
    cases hp : M4rie.findPivot A j (m - rowPos) rowPos with
    | some i =>
      have := h2 i hp
      exact ⟨rfl, by intro p hp; cases hp; exact ⟨this.1, by simp only; omega, by simp, by simp only; omega⟩⟩
    | none =>
      obtain ⟨h3, h4⟩ := ih (j + 1) (by omega)
      exact ⟨h3, fun p hp => by have := h4 p hp; omega⟩

section ple

/-- what the loop keeps -/
structure PleOk (ff : Gf2e) [IsField ff] (m n fid : Nat) {τ : Type} (T : τ → Prop) (s : PleState τ) : Prop where
  dm : Dm ff m n fid s.A
  row : s.rowPos ≤ m
  col : s.colPos ≤ n
  rc : s.rowPos ≤ s.colPos
  q : ∀ i, i < s.rowPos → s.Q i < n
  t : T s.T

theorem pleLoop_eq {τ : Type} (T : τ → Prop) (clear? : Nat → Nat → Word → Mzed × τ → Option (Mzed × τ)) (clear : Nat → Nat → Word → Mzed × τ → Mzed × τ)
    (hs : Sm ff n)
    (hc : ∀ A t rowPos j (x : Elem ff), Dm ff m n fid A → T t → rowPos < m → j + 1 < n →
      clear? rowPos j x.1 (A, t) = some (clear rowPos j x.1 (A, t)) ∧ Dm ff m n fid (clear rowPos j x.1 (A, t)).1 ∧ T (clear rowPos j x.1 (A, t)).2) :
    ∀ (fuel : Nat) (s : PleState τ), PleOk ff m n fid T s →
      pleLoop clear? fuel s = some (M4rie.pleLoop clear fuel s) ∧ PleOk ff m n fid T (M4rie.pleLoop clear fuel s) := by
  intro fuel
  induction fuel with
  | zero => intro s h; exact ⟨rfl, h⟩
  | succ fuel ih =>
    intro s h
    unfold pleLoop M4rie.pleLoop
    by_cases h0 : s.rowPos < s.A.nrows ∧ s.colPos < s.A.ncols
    · rw [if_pos h0, if_pos h0]
      have hm := h.dm.nrows_eq
      have hn := h.dm.ncols_eq
      obtain ⟨h1, h2⟩ := plePivot_eq h.dm hs h.row (s.A.ncols - s.colPos) s.colPos (by omega)
      rw [h1, Option.bind_some]
      cases hp : M4rie.plePivot s.A s.rowPos (s.A.ncols - s.colPos) s.colPos with
      | none => exact ⟨rfl, h⟩
      | some p =>
        obtain ⟨i, j⟩ := p
        obtain ⟨p1, p2, p3, p4⟩ := h2 _ hp
        simp only [] at p1 p2 p3 p4 ⊢
        have hrc := h.rc
        obtain ⟨x, e1, e2⟩ := h.dm.read hs p2 p4
        obtain ⟨s1, s2⟩ := h.dm.swap (show s.rowPos < m by omega) p2
        rw [e1, e2, Option.bind_some, need_eq (show s.rowPos < s.A.nrows ∧ s.rowPos < s.A.ncols by omega), Option.bind_some, s1, Option.bind_some]
        have hst : ∀ A' t', Dm ff m n fid A' → T t' → PleOk ff m n fid T ⟨A', setNat s.P s.rowPos i, setNat s.Q s.rowPos j, s.rowPos + 1, j + 1, t'⟩ := by
          intro A' t' hA' ht'
          refine ⟨hA', by simp only; omega, by simp only; omega, by simp only; omega, ?_, ht'⟩
          intro k hk
          simp only [setNat] at hk ⊢
          split_ifs with hki
          · exact p4
          · exact h.q k (by omega)
        by_cases hj : j + 1 < (mzedRowSwap s.A s.rowPos i).ncols
        · rw [if_pos hj, if_pos hj]
          rw [s2.ncols_eq] at hj
          obtain ⟨c1, c2, c3⟩ := hc _ s.T s.rowPos j x s2 h.t (by omega) hj
          rw [c1, Option.bind_some]
          exact ih _ (hst _ _ c2 c3)
        · rw [if_neg hj, if_neg hj, Option.bind_some]
          exact ih _ (hst _ _ s2 h.t)
    · rw [if_neg h0, if_neg h0]; exact ⟨rfl, h⟩

theorem pleFinish_eq {τ : Type} {T : τ → Prop} (hs : Sm ff n) {s : PleState τ} (h : PleOk ff m n fid T s) : pleFinish s = some (M4rie.pleFinish s) := by
  unfold pleFinish M4rie.pleFinish
  simp only []
  have := (forC_eq (fun _ A => Dm ff m n fid A)
    (fun i A => (need (i < A.ncols)).bind fun _ => colSwapInRows A i (if s.rowPos ≤ i ∧ i < s.A.ncols then i else s.Q i) i A.nrows)
    (fun i A => mzedColSwapInRows A i (if s.rowPos ≤ i ∧ i < s.A.ncols then i else s.Q i) i A.nrows) s.rowPos s.A h.dm (by
      intro i A hi hA
      have h1 := h.rc
      have h2 := h.col
      have h3 := h.row
      rw [need_eq (show i < A.ncols by rw [hA.ncols_eq]; omega), Option.bind_some, hA.nrows_eq]
      exact hA.colSwap hs (by omega) (by rw [if_neg (by omega)]; exact h.q i hi) (by omega) (by omega))).1
  rw [this, Option.bind_some]

theorem pleNaive_eq (dbg : Bool) (h : Dm ff m n fid A) (hs : Sm ff n) (P Q : Nat → Nat) : pleNaive dbg A P Q = some (mzedPleNaive A P Q) := by
  unfold pleNaive mzedPleNaive
  obtain ⟨h1, h2⟩ := pleLoop_eq (m := m) (n := n) (fid := fid) (ff := ff) (fun _ => True) (pleClearNaive dbg) M4rie.pleClearNaive hs (by
    intro A t rowPos j x hA _ hr hj
    obtain ⟨y, e3, e4⟩ := inv_eq x
    obtain ⟨r1, r2⟩ := hA.rescale dbg hs hr hj y
    unfold pleClearNaive M4rie.pleClearNaive
    simp only []
    rw [hA.ff_eq, e4, e3, Option.bind_some, r1, Option.bind_some]
    rw [r2.nrows_eq]
    obtain ⟨f1, f2⟩ := forC_eq (fun _ A => Dm ff m n fid A)
      (fun d A => (readElem A (rowPos + 1 + d) j).bind fun tmp =>
        if tmp ≠ 0#64 then addMultipleOfRow dbg A (rowPos + 1 + d) A rowPos tmp (j + 1) else some A)
      (fun d A => if mzedReadElem A (rowPos + 1 + d) j ≠ 0#64 then
        mzedAddMultipleOfRow A (rowPos + 1 + d) A rowPos (mzedReadElem A (rowPos + 1 + d) j) (j + 1) else A) (m - (rowPos + 1))
      (mzedRescaleRow A rowPos (j + 1) y.1) r2 (by
        intro d A hd hA
        obtain ⟨z, z1, z2⟩ := hA.read hs (show rowPos + 1 + d < m by omega) (show j < n by omega)
        rw [z1, z2, Option.bind_some]
        by_cases h0 : z.1 ≠ 0#64
        · rw [if_pos h0, if_pos h0]; exact hA.addMul dbg hA hs (by omega) hr hj z
        · rw [if_neg h0, if_neg h0]; exact ⟨rfl, hA⟩)
    rw [f1, Option.bind_some]
    exact ⟨rfl, f2, trivial⟩) A.ncols ⟨A, P, Q, 0, 0, ()⟩ ⟨h, by simp, by simp, le_rfl, by simp, trivial⟩
  rw [h1, Option.bind_some]
  exact pleFinish_eq hs h2
end ple

end M4rie.Chk
