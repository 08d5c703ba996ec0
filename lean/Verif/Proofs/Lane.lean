import Verif.Model.Mzed
import Verif.Spec.Packed
import Verif.Proofs.PolyWord
import Mathlib.Tactic.IntervalCases

namespace M4rie
open M4rie.Spec

/-- the four supported element widths -/
def OkW (w : Nat) : Prop := w = 2 ∨ w = 4 ∨ w = 8 ∨ w = 16

theorem OkW.pos {w} (h : OkW w) : 0 < w := by rcases h with h | h | h | h <;> omega
theorem OkW.le {w} (h : OkW w) : w ≤ 16 := by rcases h with h | h | h | h <;> omega
theorem OkW.mul {w} (h : OkW w) : 64 / w * w = 64 := by rcases h with rfl | rfl | rfl | rfl <;> rfl
theorem OkW.lpos {w} (h : OkW w) : 0 < 64 / w := by rcases h with rfl | rfl | rfl | rfl <;> decide
theorem OkW.lane_le {w k} (h : OkW w) (hk : k < 64 / w) : k * w + w ≤ 64 := by
  have := h.mul
  calc k * w + w = (k + 1) * w := by ring
    _ ≤ (64 / w) * w := Nat.mul_le_mul_right _ hk
    _ = 64 := this

theorem getLsbD_lane (w : Nat) (v : Word) (k i : Nat) (hw : w ≤ 64) :
    (laneVal w v k).getLsbD i = (decide (i < w) && v.getLsbD (k * w + i)) := by
  unfold laneVal
  by_cases hi : i < 64
  · simp only [BitVec.getLsbD, BitVec.toNat_ofNat, Nat.testBit_mod_two_pow, Nat.testBit_div_two_pow,
      hi, decide_true, Bool.true_and]
    rw [Nat.add_comm]
  · have : ¬ i < w := by omega
    simp [this, BitVec.getLsbD_of_ge _ _ (by omega : 64 ≤ i)]

theorem laneVal_lt (w : Nat) (v : Word) (k : Nat) (hw : w < 64) : (laneVal w v k).toNat < 2 ^ w := by
  unfold laneVal
  rw [BitVec.toNat_ofNat]
  exact lt_of_le_of_lt (Nat.mod_le _ _) (Nat.mod_lt _ (by positivity))

theorem word_ext {a b : Word} (h : ∀ i, i < 64 → a.getLsbD i = b.getLsbD i) : a = b :=
  BitVec.eq_of_getLsbD_eq (fun i hi => h i hi)

theorem lane_ext {w : Nat} (hw : OkW w) {a b : Word} (h : ∀ k, k < 64 / w → laneVal w a k = laneVal w b k) : a = b := by
  apply word_ext
  intro i hi
  have hp := hw.pos
  have hl := hw.le
  have hk : i / w < 64 / w := by
    rw [Nat.div_lt_iff_lt_mul hp, hw.mul]; exact hi
  have := congrArg (fun v : Word => v.getLsbD (i % w)) (h _ hk)
  simp only [getLsbD_lane _ _ _ _ (by omega : w ≤ 64), Nat.mod_lt _ hp, decide_true, Bool.true_and] at this
  rwa [Nat.div_add_mod' i w] at this

theorem lane_xor (w : Nat) (a b : Word) (k : Nat) (hw : w ≤ 64) : laneVal w (a ^^^ b) k = laneVal w a k ^^^ laneVal w b k := by
  apply word_ext; intro i hi
  simp only [BitVec.getLsbD_xor, getLsbD_lane _ _ _ _ hw]
  cases decide (i < w) <;> simp

theorem lane_and (w : Nat) (a b : Word) (k : Nat) (hw : w ≤ 64) : laneVal w (a &&& b) k = laneVal w a k &&& laneVal w b k := by
  apply word_ext; intro i hi
  simp only [BitVec.getLsbD_and, getLsbD_lane _ _ _ _ hw]
  cases decide (i < w) <;> simp

theorem lane_or (w : Nat) (a b : Word) (k : Nat) (hw : w ≤ 64) : laneVal w (a ||| b) k = laneVal w a k ||| laneVal w b k := by
  apply word_ext; intro i hi
  simp only [BitVec.getLsbD_or, getLsbD_lane _ _ _ _ hw]
  cases decide (i < w) <;> simp

@[simp] theorem lane_zero (w : Nat) (k : Nat) : laneVal w 0#64 k = 0#64 := by
  unfold laneVal; simp

/-- lane of a mask whose bits are given by a lane-constant predicate. -/
theorem lane_and_mask (w : Nat) (a m : Word) (k : Nat) (hw : w ≤ 64) (c : Bool)
    (hm : ∀ i, i < w → m.getLsbD (k * w + i) = c) :
    laneVal w (a &&& m) k = if c then laneVal w a k else 0#64 := by
  apply word_ext; intro i hi
  rw [getLsbD_lane _ _ _ _ hw, BitVec.getLsbD_and]
  by_cases h : i < w
  · rw [hm i h]
    cases c
    · simp
    · simp [getLsbD_lane _ _ _ _ hw, h]
  · cases c <;> simp [h, getLsbD_lane _ _ _ _ hw]

theorem lane_and_not_mask (w : Nat) (a m : Word) (k : Nat) (hw : w ≤ 64) (hk : k * w + w ≤ 64) (c : Bool)
    (hm : ∀ i, i < w → m.getLsbD (k * w + i) = c) :
    laneVal w (a &&& ~~~m) k = if c then 0#64 else laneVal w a k := by
  rw [lane_and_mask w a (~~~m) k hw (!c)]
  · cases c <;> simp
  · intro i hi
    rw [BitVec.getLsbD_not, hm i hi]
    have : k * w + i < 64 := by omega
    simp [this]

theorem getLsbD_leftBitmask (n i : Nat) (hn : n < 64) (hi : i < 64) :
    (leftBitmask n).getLsbD i = (decide (n = 0) || decide (i < n)) := by
  unfold leftBitmask ffff
  rw [BitVec.getLsbD_ushiftRight, BitVec.getLsbD_allOnes]
  by_cases h : n = 0
  · subst h; simp [hi]
  · rw [Nat.mod_eq_of_lt (by omega)]
    simp only [h, decide_false, Bool.false_or]
    congr 1
    apply propext
    omega

theorem getLsbD_rightBitmask (n i : Nat) (hn : n ≤ 64) (hi : i < 64) :
    (rightBitmask n).getLsbD i = decide (64 - n ≤ i) := by
  unfold rightBitmask ffff
  rw [BitVec.getLsbD_shiftLeft, BitVec.getLsbD_allOnes]
  by_cases h : 64 - n ≤ i
  · simp [hi, h]; omega
  · simp [hi, h]

theorem getLsbD_eq_false_of_lt {x : Word} {w i : Nat} (hx : x.toNat < 2 ^ w) (hi : w ≤ i) : x.getLsbD i = false :=
  (bitsLt_iff x w).2 hx i hi

theorem lane_shl {w : Nat} (hw : OkW w) (x : Word) (hx : x.toNat < 2 ^ w) (j k : Nat) (hj : j < 64 / w) (hk : k < 64 / w) :
    laneVal w (x <<< (j * w)) k = if k = j then x else 0#64 := by
  have hl := hw.le
  have hp := hw.pos
  apply word_ext; intro i hi
  have h1 := hw.lane_le hj
  have h2 := hw.lane_le hk
  rw [getLsbD_lane _ _ _ _ (by omega), BitVec.getLsbD_shiftLeft]
  by_cases hiw : i < w
  · have h3 : k * w + i < 64 := by omega
    simp only [hiw, decide_true, Bool.true_and, h3]
    by_cases hkj : k = j
    · subst hkj; simp
    · rw [if_neg hkj]
      rcases Nat.lt_or_gt_of_ne hkj with h | h
      · have : (k+1) * w ≤ j * w := Nat.mul_le_mul_right _ h
        have h4 : (k+1)*w = k*w + w := by ring
        have : k * w + i < j * w := by omega
        simp [this]
      · have : (j+1) * w ≤ k * w := Nat.mul_le_mul_right _ h
        have h4 : (j+1)*w = j*w + w := by ring
        have : w ≤ k * w + i - j * w := by omega
        simp [getLsbD_eq_false_of_lt hx this]
  · by_cases hkj : k = j
    · simp [hiw, hkj, getLsbD_eq_false_of_lt hx (by omega : w ≤ i)]
    · simp [hiw, hkj]

theorem lane_ushr (w : Nat) (a : Word) (j k : Nat) (hw : w ≤ 64) : laneVal w (a >>> (j * w)) k = laneVal w a (k + j) := by
  apply word_ext; intro i hi
  rw [getLsbD_lane _ _ _ _ hw, getLsbD_lane _ _ _ _ hw, BitVec.getLsbD_ushiftRight]
  congr 2; ring

theorem and_lowmask (w : Nat) (a m : Word) (hw : w ≤ 64) (hm : ∀ i, i < 64 → m.getLsbD i = decide (i < w)) :
    a &&& m = laneVal w a 0 := by
  apply word_ext; intro i hi
  rw [getLsbD_lane _ _ _ _ hw, BitVec.getLsbD_and, hm i hi]
  simp [Bool.and_comm]

theorem and_mask_shr (w : Nat) (a m : Word) (k : Nat) (hw : w ≤ 64)
    (hm : ∀ i, i < 64 → m.getLsbD i = (decide (k * w ≤ i) && decide (i < k * w + w))) (hk : k * w + w ≤ 64) :
    (a &&& m) >>> (k * w) = laneVal w a k := by
  apply word_ext; intro i hi
  rw [getLsbD_lane _ _ _ _ hw, BitVec.getLsbD_ushiftRight, BitVec.getLsbD_and]
  by_cases h : i < w
  · rw [hm _ (by omega)]; simp [h]
  · by_cases h2 : k * w + i < 64
    · rw [hm _ h2]; simp [h]
    · simp [h, BitVec.getLsbD_of_ge _ _ (by omega : 64 ≤ k * w + i)]

theorem xor_lt_two_pow {n : Nat} {a b : Word} (ha : a.toNat < 2 ^ n) (hb : b.toNat < 2 ^ n) :
    (a ^^^ b).toNat < 2 ^ n := by
  rw [BitVec.toNat_xor]; exact Nat.xor_lt_two_pow ha hb

end M4rie
