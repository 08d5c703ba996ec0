import Verif.Proofs.RowOps
import Verif.Proofs.Gf2eField

namespace M4rie
open M4rie.Spec

theorem pos_split {L : Nat} (hL : 0 < L) (j : Nat) : j / L * L + j % L = j := Nat.div_add_mod' j L

section
variable {w : Nat} (hw : OkW w)
include hw

theorem readBits_entry (words : Nat → Nat → Word) (x col : Nat) :
    mzdReadBits words x (w * col) w = entryOf w words x col := by
  unfold mzdReadBits entryOf
  simp only []
  rw [hw.block, hw.spot]
  have hk : col % (64 / w) < 64 / w := Nat.mod_lt _ hw.lpos
  have h1 := hw.lane_le hk
  have hl := hw.le
  have hp := hw.pos
  generalize words x (col / (64 / w)) = v
  generalize col % (64 / w) = k at *
  apply word_ext; intro i hi
  rw [getLsbD_lane _ _ _ _ (by omega), BitVec.getLsbD_ushiftRight, BitVec.getLsbD_shiftLeft]
  by_cases h : i < w
  · have e1 : 64 - w + i < 64 := by omega
    have e2 : ¬ (64 - w + i < 64 - (k * w + w)) := by omega
    have e3 : 64 - w + i - (64 - (k * w + w)) = k * w + i := by omega
    simp [h, e1, e2, e3]
  · have e1 : ¬ (64 - w + i < 64) := by omega
    simp [h, e1]

theorem xorBits_entry (words : Nat → Nat → Word) (x col : Nat) (v : Word) (hv : v.toNat < 2 ^ w) (i j : Nat) :
    entryOf w (mzdXorBits words x (w * col) v) i j =
      if i = x ∧ j = col then entryOf w words i j ^^^ v else entryOf w words i j := by
  unfold mzdXorBits entryOf setRow setWord
  rw [hw.block, hw.spot]
  have hl := hw.le
  have hk : col % (64 / w) < 64 / w := Nat.mod_lt _ hw.lpos
  have hj : j % (64 / w) < 64 / w := Nat.mod_lt _ hw.lpos
  have h1 := pos_split hw.lpos col
  have h2 := pos_split hw.lpos j
  by_cases hi : i = x
  · subst hi
    simp only [if_true, true_and]
    by_cases hb : j / (64 / w) = col / (64 / w)
    · rw [if_pos hb, lane_xor _ _ _ _ (by omega), lane_shl hw v hv _ _ hk hj, hb]
      by_cases hjc : j = col
      · subst hjc; simp
      · have : ¬ j % (64 / w) = col % (64 / w) := by
          intro h; apply hjc; rw [← h1, ← h2, h, hb]
        simp [this, hjc]
    · rw [if_neg hb]
      have : ¬ j = col := fun h => hb (by rw [h])
      simp [this]
  · simp [hi]

theorem clearBits_entry (words : Nat → Nat → Word) (x col : Nat) (i j : Nat) :
    entryOf w (mzdClearBits words x (w * col) w) i j =
      if i = x ∧ j = col then 0#64 else entryOf w words i j := by
  unfold mzdClearBits entryOf setRow setWord
  simp only []
  rw [hw.block, hw.spot]
  have hl := hw.le
  have hp := hw.pos
  have hk : col % (64 / w) < 64 / w := Nat.mod_lt _ hw.lpos
  have hj : j % (64 / w) < 64 / w := Nat.mod_lt _ hw.lpos
  have h1 := pos_split hw.lpos col
  have h2 := pos_split hw.lpos j
  have hkl := hw.lane_le hk
  have hjl := hw.lane_le hj
  by_cases hi : i = x
  · subst hi
    simp only [if_true, true_and]
    by_cases hb : j / (64 / w) = col / (64 / w)
    · rw [if_pos hb, lane_and_not_mask w _ _ _ (by omega) hjl (decide (j % (64 / w) = col % (64 / w))), hb]
      · by_cases hjc : j = col
        · subst hjc; simp
        · have : ¬ j % (64 / w) = col % (64 / w) := by
            intro h; apply hjc; rw [← h1, ← h2, h, hb]
          simp [this, hjc]
      · intro q hq
        have hval : (ffff >>> (64 - w)).toNat < 2 ^ w := by
          rw [← bitsLt_iff]; intro q hq
          unfold ffff
          rw [BitVec.getLsbD_ushiftRight, BitVec.getLsbD_allOnes]; simp; omega
        have e := congrArg (fun v : Word => v.getLsbD q) (lane_shl hw (ffff >>> (64 - w)) hval (col % (64 / w)) (j % (64 / w)) hk hj)
        simp only [getLsbD_lane _ _ _ _ (by omega : w ≤ 64), hq, decide_true, Bool.true_and] at e
        rw [e]
        by_cases h : j % (64 / w) = col % (64 / w)
        · rw [if_pos h]
          unfold ffff
          rw [BitVec.getLsbD_ushiftRight, BitVec.getLsbD_allOnes]; simp [h]; omega
        · rw [if_neg h]; simp [h]
    · rw [if_neg hb]
      have : ¬ j = col := fun h => hb (by rw [h])
      simp [this]
  · simp [hi]

/-- the entries (for all positions, including padding) determine all memory words -/
theorem entries_determine {m m' : Nat → Nat → Word} (h : ∀ i j, entryOf w m i j = entryOf w m' i j) : m = m' := by
  funext i b
  apply lane_ext hw
  intro k hk
  have := h i (b * (64 / w) + k)
  unfold entryOf at this
  have e1 : (b * (64 / w) + k) / (64 / w) = b := by
    rw [Nat.mul_comm, Nat.mul_add_div hw.lpos, Nat.div_eq_of_lt hk, Nat.add_zero]
  have e2 : (b * (64 / w) + k) % (64 / w) = k := by
    rw [Nat.mul_comm, Nat.mul_add_mod, Nat.mod_eq_of_lt hk]
  rwa [e1, e2] at this

theorem setRow_entry (words : Nat → Nat → Word) (r : Nat) (row : Nat → Word) (i j : Nat) :
    entryOf w (setRow words r row) i j =
      if i = r then laneVal w (row (j / (64 / w))) (j % (64 / w)) else entryOf w words i j := by
  unfold entryOf setRow
  by_cases h : i = r <;> simp [h]

end

/-- A packed matrix over the field `ff` as `mzed_init` creates it. -/
structure Mzed.WF (A : Mzed) : Prop where
  ff : FFOK A.ff
  deg : 2 ≤ A.ff.degree
  w : A.w = degreeToW A.ff.degree

theorem degreeToW_ok {e : Nat} (h2 : 2 ≤ e) (h16 : e ≤ 16) : OkW (degreeToW e) ∧ e ≤ degreeToW e := by
  interval_cases e <;> simp [degreeToW, degreeToW?, OkW]

theorem Mzed.WF.okW {A : Mzed} (h : A.WF) : OkW A.w := by
  rw [h.w]; exact (degreeToW_ok h.deg h.ff.min.e16).1
theorem Mzed.WF.le {A : Mzed} (h : A.WF) : A.ff.degree ≤ A.w := by
  rw [h.w]; exact (degreeToW_ok h.deg h.ff.min.e16).2

/-- the number stored at row `i`, position `j` -/
def Mzed.entry (A : Mzed) (i j : Nat) : Word := entryOf A.w A.words i j

/-- every stored number is a field element -/
def Mzed.Canon (A : Mzed) : Prop := ∀ i j, (A.entry i j).toNat < 2 ^ A.ff.degree

theorem entry_lt {A : Mzed} (h : A.WF) (i j : Nat) : (A.entry i j).toNat < 2 ^ A.w :=
  laneVal_lt _ _ _ (by have := h.okW.le; omega)

theorem lane_eq_entry {A : Mzed} (h : A.WF) (i b k : Nat) (hk : k < 64 / A.w) :
    laneVal A.w (A.words i b) k = A.entry i (b * (64 / A.w) + k) := by
  unfold Mzed.entry entryOf
  rw [show (b * (64 / A.w) + k) / (64 / A.w) = b by
      rw [Nat.mul_comm, Nat.mul_add_div h.okW.lpos, Nat.div_eq_of_lt hk, Nat.add_zero],
    show (b * (64 / A.w) + k) % (64 / A.w) = k by rw [Nat.mul_comm, Nat.mul_add_mod, Nat.mod_eq_of_lt hk]]

theorem mul_lt {ff : Gf2e} (h : FFOK ff) {a b : Word} (ha : a.toNat < 2 ^ ff.degree) (hb : b.toNat < 2 ^ ff.degree) :
    (gf2eMul ff a b).toNat < 2 ^ ff.degree := (gf2eMul_spec h a b ha hb).2.1

theorem mul_zero' {ff : Gf2e} (h : FFOK ff) {a : Word} (ha : a.toNat < 2 ^ ff.degree) :
    gf2eMul ff 0#64 a = 0#64 := by
  have : Fact (FFOK ff) := ⟨h⟩
  let a' : Elem ff := ⟨a, ha⟩
  have := zero_mul a'
  exact congrArg Subtype.val this

theorem mul_one_left {ff : Gf2e} (h : FFOK ff) {a : Word} (ha : a.toNat < 2 ^ ff.degree) :
    gf2eMul ff 1#64 a = a := by
  have : Fact (FFOK ff) := ⟨h⟩
  let a' : Elem ff := ⟨a, ha⟩
  have := one_mul a'
  exact congrArg Subtype.val this

theorem readElem_eq {A : Mzed} (h : A.WF) (i j : Nat) : mzedReadElem A i j = A.entry i j :=
  readBits_entry h.okW _ _ _

theorem addElem_entry {A : Mzed} (h : A.WF) (r c : Nat) (x : Word) (hx : x.toNat < 2 ^ A.ff.degree) (i j : Nat) :
    (mzedAddElem A r c x).entry i j = if i = r ∧ j = c then A.entry i j ^^^ x else A.entry i j :=
  xorBits_entry h.okW _ _ _ _ (lt_of_lt_of_le hx (Nat.pow_le_pow_right (by norm_num) h.le)) _ _

theorem writeElem_entry {A : Mzed} (h : A.WF) (r c : Nat) (x : Word) (hx : x.toNat < 2 ^ A.w) (i j : Nat) :
    (mzedWriteElem A r c x).entry i j = if i = r ∧ j = c then x else A.entry i j := by
  unfold Mzed.entry mzedWriteElem
  simp only []
  rw [xorBits_entry h.okW _ _ _ _ hx, clearBits_entry h.okW]
  split_ifs <;> simp

theorem addRow_entry {A : Mzed} (h : A.WF) (ar : Nat) (B : Mzed) (hB : B.w = A.w) (br s : Nat) (hs : s < A.ncols) (i j : Nat) :
    (mzedAddRow A ar B br s).entry i j =
      if i = ar ∧ s ≤ j ∧ j < A.ncols then A.entry i j ^^^ B.entry br j else A.entry i j := by
  unfold mzedAddRow Mzed.entry
  simp only []
  rw [setRow_entry h.okW, addRowWords_lane h.okW _ _ hs _ _ _ _ (Nat.mod_lt _ h.okW.lpos), pos_split h.okW.lpos]
  by_cases hi : i = ar
  · subst hi; simp [hB, entryOf]
  · simp [hi]

theorem rescaleRow_entry {A : Mzed} (h : A.WF) (hc : A.Canon) (r s : Nat) (hs : s < A.ncols) (x : Word)
    (hx : x.toNat < 2 ^ A.ff.degree) (i j : Nat) :
    (mzedRescaleRow A r s x).entry i j =
      if i = r ∧ s ≤ j ∧ j < A.ncols then gf2eMul A.ff x (A.entry i j) else A.entry i j := by
  obtain ⟨code, h1, h2⟩ := rescaleCode_ok h.okW
  unfold mzedRescaleRow Mzed.entry
  rw [h1]
  simp only []
  have hm : ∀ b k, k < 64 / A.w → (gf2eMul A.ff x (laneVal A.w (A.words r b) k)).toNat < 2 ^ A.w := by
    intro b k hk
    rw [lane_eq_entry h _ _ _ hk]
    exact lt_of_lt_of_le (mul_lt h.ff hx (hc _ _)) (Nat.pow_le_pow_right (by norm_num) h.le)
  rw [setRow_entry h.okW, rescaleWords_lane h.okW _ h2 _ _ hs _ hm _ _ (Nat.mod_lt _ h.okW.lpos), pos_split h.okW.lpos]
  by_cases hi : i = r
  · subst hi; simp [entryOf]
  · simp [hi]

theorem addMultipleOfRow_entry {A : Mzed} (h : A.WF) (ar : Nat) (B : Mzed) (hBff : B.ff = A.ff) (hBw : B.w = A.w)
    (hB : B.Canon) (br s : Nat) (hs : s < A.ncols) (x : Word) (hx : x.toNat < 2 ^ A.ff.degree) (i j : Nat) :
    (mzedAddMultipleOfRow A ar B br x s).entry i j =
      if i = ar ∧ s ≤ j ∧ j < A.ncols then A.entry i j ^^^ gf2eMul A.ff x (B.entry br j) else A.entry i j := by
  have hBe : ∀ i j, (B.entry i j).toNat < 2 ^ A.ff.degree := by rw [← hBff]; exact hB
  have hBwf : B.WF := ⟨by rw [hBff]; exact h.ff, by rw [hBff]; exact h.deg, by rw [hBff, hBw]; exact h.w⟩
  unfold mzedAddMultipleOfRow
  by_cases h0 : x = 0#64
  · rw [if_pos h0, h0, mul_zero' h.ff (hBe _ _)]; simp
  rw [if_neg h0]
  by_cases h1 : x = 1#64
  · rw [if_pos h1, h1, mul_one_left h.ff (hBe _ _)]; exact addRow_entry h ar B hBw br s hs i j
  rw [if_neg h1]
  obtain ⟨code, h1, h2⟩ := addmulCode_ok h.okW
  unfold Mzed.entry
  rw [h1]
  simp only []
  have hm : ∀ b k, k < 64 / A.w → (gf2eMul A.ff x (laneVal A.w (B.words br b) k)).toNat < 2 ^ A.w := by
    intro b k hk
    rw [← hBw] at hk ⊢
    rw [lane_eq_entry hBwf _ _ _ hk, hBw]
    exact lt_of_lt_of_le (mul_lt h.ff hx (hBe _ _)) (Nat.pow_le_pow_right (by norm_num) h.le)
  rw [setRow_entry h.okW, addmulWords_lane h.okW _ h2 _ _ hs _ _ hm _ _ (Nat.mod_lt _ h.okW.lpos), pos_split h.okW.lpos]
  by_cases hi : i = ar
  · subst hi; simp [entryOf, hBw]
  · simp [hi]

end M4rie
