import Verif.Spec.Rep
import Mathlib.Algebra.BigOperators.Intervals

/-! Refinement lemmas: packed operations act on the represented matrix as expected. -/

namespace M4rie
open M4rie.Spec

variable {ff : Gf2e} [IsField ff]

/-- invariant rule for `forN` -/
theorem forN_inv {σ : Type} (P : Nat → σ → Prop) (f : Nat → σ → σ) (s : σ) (n : Nat) (h0 : P 0 s)
    (hs : ∀ i s, i < n → P i s → P (i + 1) (f i s)) : P n (forN f n s) := by
  induction n with
  | zero => exact h0
  | succ n ih => exact hs n _ (by omega) (ih (fun i s hi => hs i s (by omega)))

/-- same dimensions -/
structure SameDim (A B : Mzed) : Prop where
  nrows : A.nrows = B.nrows
  ncols : A.ncols = B.ncols
  fid : A.fid = B.fid

theorem SameDim.refl (A : Mzed) : SameDim A A := ⟨rfl, rfl, rfl⟩
theorem SameDim.trans {A B C : Mzed} (h : SameDim A B) (h' : SameDim B C) : SameDim A C :=
  ⟨h.1.trans h'.1, h.2.trans h'.2, h.3.trans h'.3⟩

theorem Rep.setWords {A : Mzed} {M M' : Nat → Nat → Elem ff} (h : Rep A M) (m : Nat → Nat → Word)
    (he : ∀ i j, entryOf A.w m i j = (M' i j).1) : Rep { A with words := m } M' := ⟨h.ffEq, h.wEq, he⟩

theorem Rep.read {A : Mzed} {M : Nat → Nat → Elem ff} (h : Rep A M) (i j : Nat) : mzedReadElem A i j = (M i j).1 := by
  rw [readElem_eq h.wf]; exact h.entry i j

theorem Rep.elem_lt {A : Mzed} {M : Nat → Nat → Elem ff} (h : Rep A M) (x : Elem ff) : x.1.toNat < 2 ^ A.ff.degree := by
  rw [h.ffEq]; exact x.2

theorem Rep.elem_lt_w {A : Mzed} {M : Nat → Nat → Elem ff} (h : Rep A M) (x : Elem ff) : x.1.toNat < 2 ^ A.w :=
  lt_of_lt_of_le (h.elem_lt x) (Nat.pow_le_pow_right (by norm_num) h.wf.le)

theorem Rep.writeElem {A : Mzed} {M : Nat → Nat → Elem ff} (h : Rep A M) (r c : Nat) (x : Elem ff) :
    Rep (mzedWriteElem A r c x.1) (fun i j => if i = r ∧ j = c then x else M i j) := by
  refine h.setWords _ ?_
  intro i j
  have := writeElem_entry h.wf r c x.1 (h.elem_lt_w x) i j
  unfold Mzed.entry mzedWriteElem at this
  rw [this, h.entry]
  split_ifs <;> rfl

theorem Rep.addElem {A : Mzed} {M : Nat → Nat → Elem ff} (h : Rep A M) (r c : Nat) (x : Elem ff) :
    Rep (mzedAddElem A r c x.1) (fun i j => if i = r ∧ j = c then M i j + x else M i j) := by
  refine h.setWords _ ?_
  intro i j
  have := addElem_entry h.wf r c x.1 (h.elem_lt x) i j
  unfold Mzed.entry mzedAddElem at this
  rw [this, h.entry]
  split_ifs <;> simp

theorem Rep.rescaleRow {A : Mzed} {M : Nat → Nat → Elem ff} (h : Rep A M) (r s : Nat) (hs : s < A.ncols) (x : Elem ff) :
    Rep (mzedRescaleRow A r s x.1) (fun i j => if i = r ∧ s ≤ j ∧ j < A.ncols then x * M i j else M i j) := by
  have key := rescaleRow_entry h.wf h.canon r s hs x.1 (h.elem_lt x)
  unfold Mzed.entry at key
  obtain ⟨code, h1, h2⟩ := rescaleCode_ok h.wf.okW
  have e : mzedRescaleRow A r s x.1 = { A with words := (mzedRescaleRow A r s x.1).words } := by
    unfold mzedRescaleRow; rw [h1]
  rw [e]
  refine h.setWords _ ?_
  intro i j
  have hw : (mzedRescaleRow A r s x.1).w = A.w := by rw [e]
  rw [hw] at key
  rw [key, h.entry]
  split_ifs
  · rw [Elem.mul_val, h.ffEq]
  · rfl

theorem rescaleRow_dim (A : Mzed) (hw : OkW A.w) (r s : Nat) (x : Word) : SameDim (mzedRescaleRow A r s x) A := by
  obtain ⟨code, h1, h2⟩ := rescaleCode_ok hw
  unfold mzedRescaleRow; rw [h1]; exact ⟨rfl, rfl, rfl⟩

theorem Rep.addRow {A B : Mzed} {M N : Nat → Nat → Elem ff} (h : Rep A M) (hB : Rep B N) (ar br s : Nat) (hs : s < A.ncols) :
    Rep (mzedAddRow A ar B br s) (fun i j => if i = ar ∧ s ≤ j ∧ j < A.ncols then M i j + N br j else M i j) := by
  refine h.setWords _ ?_
  intro i j
  have key := addRow_entry h.wf ar B (by rw [hB.wEq, h.wEq]) br s hs i j
  unfold Mzed.entry mzedAddRow at key
  rw [key, h.entry, hB.entry]
  split_ifs <;> simp

theorem Rep.addMultipleOfRow {A B : Mzed} {M N : Nat → Nat → Elem ff} (h : Rep A M) (hB : Rep B N) (ar br s : Nat)
    (hs : s < A.ncols) (x : Elem ff) :
    Rep (mzedAddMultipleOfRow A ar B br x.1 s)
      (fun i j => if i = ar ∧ s ≤ j ∧ j < A.ncols then M i j + x * N br j else M i j) := by
  have key := addMultipleOfRow_entry h.wf ar B (by rw [hB.ffEq, h.ffEq]) (by rw [hB.wEq, h.wEq]) hB.canon br s hs x.1 (h.elem_lt x)
  unfold Mzed.entry at key
  obtain ⟨code, h1, h2⟩ := addmulCode_ok h.wf.okW
  have e : mzedAddMultipleOfRow A ar B br x.1 s = { A with words := (mzedAddMultipleOfRow A ar B br x.1 s).words } := by
    unfold mzedAddMultipleOfRow
    by_cases h0 : x.1 = 0#64
    · rw [if_pos h0]
    · rw [if_neg h0]
      by_cases h0 : x.1 = 1#64
      · rw [if_pos h0]; rfl
      · rw [if_neg h0, h1]
  rw [e]
  refine h.setWords _ ?_
  intro i j
  have hw : (mzedAddMultipleOfRow A ar B br x.1 s).w = A.w := by rw [e]
  rw [hw] at key
  rw [key, h.entry, hB.entry]
  split_ifs
  · rw [Elem.add_val, Elem.mul_val, h.ffEq]
  · rfl

theorem addMultipleOfRow_dim (A : Mzed) (hw : OkW A.w) (ar : Nat) (B : Mzed) (br : Nat) (x : Word) (s : Nat) :
    SameDim (mzedAddMultipleOfRow A ar B br x s) A := by
  obtain ⟨code, h1, h2⟩ := addmulCode_ok hw
  unfold mzedAddMultipleOfRow
  by_cases h0 : x = 0#64
  · rw [if_pos h0]; exact SameDim.refl A
  · rw [if_neg h0]
    by_cases h0 : x = 1#64
    · rw [if_pos h0]; exact ⟨rfl, rfl, rfl⟩
    · rw [if_neg h0, h1]; exact ⟨rfl, rfl, rfl⟩

theorem Rep.rowSwap {A : Mzed} {M : Nat → Nat → Elem ff} (h : Rep A M) (a b : Nat) :
    Rep (mzedRowSwap A a b) (fun i j => if j < A.ncols then
      (if i = a then M b j else if i = b then M a j else M i j) else M i j) := by
  refine h.setWords _ ?_
  intro i j
  unfold Mzed.bitCols
  rw [mzdRowSwap_entry h.wf.okW]
  simp only [h.entry]
  split_ifs <;> rfl

theorem Rep.copyRow {A B : Mzed} {M N : Nat → Nat → Elem ff} (h : Rep B N) (hA : Rep A M) (r s : Nat) :
    Rep (mzedCopyRow B r A s) (fun i j => if i = r ∧ j < A.ncols then M s j else N i j) := by
  refine h.setWords _ ?_
  intro i j
  unfold Mzed.bitCols
  have hww : B.w = A.w := by rw [h.wEq, hA.wEq]
  rw [hww, mzdCopyRow_entry hA.wf.okW, hA.entry, ← hww, h.entry]
  split_ifs <;> rfl

theorem Rep.rowAdd {A : Mzed} {M : Nat → Nat → Elem ff} (h : Rep A M) (s d : Nat) :
    Rep (mzedRowAdd A s d) (fun i j => if i = d ∧ j < A.ncols then M d j + M s j else M i j) := by
  refine h.setWords _ ?_
  intro i j
  unfold Mzed.bitCols
  rw [mzdRowAdd_entry h.wf.okW]
  simp only [h.entry]
  split_ifs <;> rfl

/-- both column swaps are a loop over bit columns on the words -/
theorem colSwap_words (A : Mzed) (a b start stop e : Nat) :
    forN (fun k (A : Mzed) => { A with words := mzdColSwapInRows A.words (A.w * a + k) (A.w * b + k) start stop }) e A =
    { A with words := forN (fun k m => mzdColSwapInRows m (A.w * a + k) (A.w * b + k) start stop) e A.words } := by
  induction e with
  | zero => rfl
  | succ e ih => rw [forN, ih]; rfl

theorem colSwap_words' (A : Mzed) (a b e : Nat) :
    forN (fun k (A : Mzed) => { A with words := mzdColSwap A.nrows A.words (A.w * a + k) (A.w * b + k) }) e A =
    { A with words := forN (fun k m => mzdColSwapInRows m (A.w * a + k) (A.w * b + k) 0 A.nrows) e A.words } := by
  induction e with
  | zero => rfl
  | succ e ih => rw [forN, ih]; rfl

theorem colSwap_entry {A : Mzed} {M : Nat → Nat → Elem ff} (h : Rep A M) (a b start stop e : Nat)
    (he : ff.degree ≤ e) (hew : e ≤ A.w) (i j : Nat) :
    entryOf A.w (forN (fun k m => mzdColSwapInRows m (A.w * a + k) (A.w * b + k) start stop) e A.words) i j =
      (if start ≤ i ∧ i < stop then (if j = a then M i b else if j = b then M i a else M i j) else M i j : Elem ff).1 := by
  have hw := h.wf.okW
  apply entry_ext hw
  · intro q hq
    rw [colSwap_bits hw a b start stop A.words e hew i j q hq]
    have bits : ∀ i j, bitAt A.words i (A.w * j + q) = (M i j).1.getLsbD q := by
      intro i j; rw [← entry_bits hw _ _ _ _ hq, h.entry]
    simp only [bits]
    by_cases hr : start ≤ i ∧ i < stop
    · by_cases hqe : q < e
      · simp only [hr, hqe, and_self, if_true]
        split_ifs <;> rfl
      · simp only [hr, hqe, and_false, if_true, if_false]
        have z : ∀ i j, (M i j).1.getLsbD q = false := fun i j => getLsbD_eq_false_of_lt (M i j).2 (by omega)
        simp only [and_self, if_true]
        split_ifs <;> simp only [z]
    · simp only [hr, false_and, if_false]
  · split_ifs <;> exact h.elem_lt_w _

theorem Rep.colSwap {A : Mzed} {M : Nat → Nat → Elem ff} (h : Rep A M) (a b : Nat) :
    Rep (mzedColSwap A a b) (fun i j => if i < A.nrows then
      (if j = a then M i b else if j = b then M i a else M i j) else M i j) := by
  unfold mzedColSwap
  rw [colSwap_words']
  refine h.setWords _ ?_
  intro i j
  have := colSwap_entry h a b 0 A.nrows A.w (by have := h.wf.le; rwa [h.ffEq] at this) le_rfl i j
  simpa using this

theorem Rep.colSwapInRows {A : Mzed} {M : Nat → Nat → Elem ff} (h : Rep A M) (a b start stop : Nat) :
    Rep (mzedColSwapInRows A a b start stop) (fun i j => if start ≤ i ∧ i < stop then
      (if j = a then M i b else if j = b then M i a else M i j) else M i j) := by
  unfold mzedColSwapInRows
  rw [colSwap_words]
  refine h.setWords _ ?_
  intro i j
  exact colSwap_entry h a b start stop A.ff.degree (by rw [h.ffEq]) h.wf.le i j

theorem Rep.clear {A : Mzed} {M : Nat → Nat → Elem ff} (h : Rep A M) :
    Rep { A with words := mzdClear A.nrows A.bitCols A.words } (fun i j => if i < A.nrows ∧ j < A.ncols then 0 else M i j) := by
  refine h.setWords _ ?_
  intro i j
  unfold Mzed.bitCols
  rw [mzdClear_entry h.wf.okW, h.entry]
  split_ifs <;> rfl

theorem Rep.setUi {A : Mzed} {M : Nat → Nat → Elem ff} (h : Rep A M) (x : Elem ff) :
    Rep (mzedSetUi A x.1) (fun i j => if i < A.nrows ∧ j < A.ncols then (if i = j then x else 0) else M i j) ∧
    SameDim (mzedSetUi A x.1) A := by
  unfold mzedSetUi
  simp only []
  by_cases h0 : x.1 = 0#64
  · rw [if_pos h0]
    have : x = 0 := Elem.ext' h0
    subst this
    refine ⟨?_, ⟨rfl, rfl, rfl⟩⟩
    have := h.clear
    simpa using this
  · rw [if_neg h0]
    have := forN_inv (fun k (B : Mzed) => Rep B (fun i j => if i < A.nrows ∧ j < A.ncols then
        (if i = j ∧ i < k then x else 0) else M i j) ∧ SameDim B A) (fun i A => mzedWriteElem A i i x.1)
      { A with words := mzdClear A.nrows A.bitCols A.words } (min A.ncols A.nrows)
      ⟨by simpa using h.clear, ⟨rfl, rfl, rfl⟩⟩ (by
        intro k B hk ⟨hB, hd⟩
        refine ⟨?_, ⟨hd.1, hd.2, hd.3⟩⟩
        convert hB.writeElem k k x using 3 with i j
        by_cases hik : i = k ∧ j = k
        · obtain ⟨rfl, rfl⟩ := hik
          rw [if_pos (by omega), if_pos (by omega), if_pos (by omega)]
        · rw [if_neg hik]
          congr 2
          apply propext
          omega)
    refine ⟨?_, this.2⟩
    convert this.1 using 4 with i j hij
    apply if_congr _ rfl rfl
    omega

theorem sum_range_succ' {α} [AddCommMonoid α] (f : Nat → α) (n : Nat) :
    ∑ k ∈ Finset.range (n+1), f k = ∑ k ∈ Finset.range n, f k + f n := Finset.sum_range_succ f n

theorem Rep.mulNaiveAcc {C A B : Mzed} {MC MA MB : Nat → Nat → Elem ff} (hC : Rep C MC) (hA : Rep A MA) (hB : Rep B MB) :
    Rep (mzedMulNaiveAcc C A B) (fun i j => if i < C.nrows ∧ j < C.ncols then
      MC i j + ∑ k ∈ Finset.range A.ncols, MA i k * MB k j else MC i j) ∧ SameDim (mzedMulNaiveAcc C A B) C := by
  unfold mzedMulNaiveAcc
  set S := fun i j => MC i j + ∑ k ∈ Finset.range A.ncols, MA i k * MB k j with hS
  have inner : ∀ i j (D : Mzed) (MD : Nat → Nat → Elem ff), Rep D MD →
      Rep (forN (fun k C => mzedAddElem C i j (gf2eMul C.ff (mzedReadElem A i k) (mzedReadElem B k j))) A.ncols D)
        (fun i' j' => if i' = i ∧ j' = j then MD i' j' + ∑ k ∈ Finset.range A.ncols, MA i k * MB k j else MD i' j') ∧
      SameDim (forN (fun k C => mzedAddElem C i j (gf2eMul C.ff (mzedReadElem A i k) (mzedReadElem B k j))) A.ncols D) D := by
    intro i j D MD hD
    apply forN_inv (fun n (E : Mzed) => Rep E (fun i' j' => if i' = i ∧ j' = j then
      MD i' j' + ∑ k ∈ Finset.range n, MA i k * MB k j else MD i' j') ∧ SameDim E D)
    · refine ⟨?_, SameDim.refl _⟩
      convert hD using 3
      simp
    · intro k E hk ⟨hE, hd⟩
      refine ⟨?_, ⟨hd.1, hd.2, hd.3⟩⟩
      rw [hA.read, hB.read, hE.ffEq]
      have := hE.addElem i j (MA i k * MB k j)
      rw [Elem.mul_val] at this
      convert this using 3 with i' j'
      by_cases hij : i' = i ∧ j' = j
      · simp only [hij, and_self, if_true, Finset.sum_range_succ, add_assoc]
      · simp only [hij, if_false]
  have mid : ∀ i (D : Mzed) (MD : Nat → Nat → Elem ff), Rep D MD → SameDim D C →
      Rep (forN (fun j C => forN (fun k C => mzedAddElem C i j (gf2eMul C.ff (mzedReadElem A i k) (mzedReadElem B k j))) A.ncols C) D.ncols D)
        (fun i' j' => if i' = i ∧ j' < D.ncols then MD i' j' + ∑ k ∈ Finset.range A.ncols, MA i k * MB k j' else MD i' j') ∧
      SameDim (forN (fun j C => forN (fun k C => mzedAddElem C i j (gf2eMul C.ff (mzedReadElem A i k) (mzedReadElem B k j))) A.ncols C) D.ncols D) C := by
    intro i D MD hD hDC
    apply forN_inv (fun n (E : Mzed) => Rep E (fun i' j' => if i' = i ∧ j' < n then
      MD i' j' + ∑ k ∈ Finset.range A.ncols, MA i k * MB k j' else MD i' j') ∧ SameDim E C)
    · refine ⟨?_, hDC⟩
      convert hD using 3
      simp
    · intro j E hj ⟨hE, hd⟩
      obtain ⟨r1, r2⟩ := inner i j E _ hE
      refine ⟨?_, r2.trans hd⟩
      convert r1 using 3 with i' j'
      by_cases hij : i' = i ∧ j' = j
      · obtain ⟨rfl, rfl⟩ := hij
        simp
      · rw [if_neg hij]
        apply if_congr _ rfl rfl
        omega
  have := forN_inv (fun n (E : Mzed) => Rep E (fun i' j' => if i' < n ∧ j' < C.ncols then S i' j' else MC i' j') ∧ SameDim E C)
    (fun i C => forN (fun j C => forN (fun k C => mzedAddElem C i j (gf2eMul C.ff (mzedReadElem A i k) (mzedReadElem B k j))) A.ncols C) C.ncols C)
    C C.nrows (by
      refine ⟨?_, SameDim.refl _⟩
      convert hC using 3
      simp) (by
      intro i E hi ⟨hE, hd⟩
      obtain ⟨r1, r2⟩ := mid i E _ hE hd
      refine ⟨?_, r2⟩
      convert r1 using 3 with i' j'
      rw [hd.ncols]
      by_cases hij : i' = i ∧ j' < C.ncols
      · obtain ⟨rfl, h2⟩ := hij
        simp [h2, hS]
      · rw [if_neg hij]
        apply if_congr _ rfl rfl
        omega)
  exact this

end M4rie
