import Verif.Proofs.IrredA
import Verif.Proofs.IrredB
import Verif.Proofs.IrredC
import Verif.Proofs.IrredD

namespace M4rie.BenOr

/-- strictly increasing list, starting above `p` -/
def incr : Nat → List Nat → Bool
  | _, [] => true
  | p, a :: l => Nat.blt p a && incr a l

theorem incr_sound : ∀ (l : List Nat) (p : Nat), incr p l = true → (p :: l).Pairwise (· < ·) := by
  intro l
  induction l with
  | nil => intro p _; simp
  | cons a l ih =>
    intro p h
    rw [incr, Bool.and_eq_true] at h
    have h1 := ih a h.2
    have hpa : p < a := by
      have := h.1
      simpa [Nat.blt] using Nat.le_of_ble_eq_true this
    rw [List.pairwise_cons]
    refine ⟨?_, h1⟩
    intro x hx
    rcases List.mem_cons.1 hx with rfl | hx
    · exact hpa
    · exact lt_trans hpa ((List.pairwise_cons.1 h1).1 x hx)

theorem irredLen1 : irredT1.length = 2 := by decide +kernel
theorem irredIncr1 : incr 1 irredT1 = true := by decide +kernel
theorem irredLen2 : irredT2.length = 1 := by decide +kernel
theorem irredIncr2 : incr 1 irredT2 = true := by decide +kernel
theorem irredLen3 : irredT3.length = 2 := by decide +kernel
theorem irredIncr3 : incr 1 irredT3 = true := by decide +kernel
theorem irredLen4 : irredT4.length = 3 := by decide +kernel
theorem irredIncr4 : incr 1 irredT4 = true := by decide +kernel
theorem irredLen5 : irredT5.length = 6 := by decide +kernel
theorem irredIncr5 : incr 1 irredT5 = true := by decide +kernel
theorem irredLen6 : irredT6.length = 9 := by decide +kernel
theorem irredIncr6 : incr 1 irredT6 = true := by decide +kernel
theorem irredLen7 : irredT7.length = 18 := by decide +kernel
theorem irredIncr7 : incr 1 irredT7 = true := by decide +kernel
theorem irredLen8 : irredT8.length = 30 := by decide +kernel
theorem irredIncr8 : incr 1 irredT8 = true := by decide +kernel
theorem irredLen9 : irredT9.length = 56 := by decide +kernel
theorem irredIncr9 : incr 1 irredT9 = true := by decide +kernel
theorem irredLen10 : irredT10.length = 99 := by decide +kernel
theorem irredIncr10 : incr 1 irredT10 = true := by decide +kernel
theorem irredLen11 : irredT11.length = 186 := by decide +kernel
theorem irredIncr11 : incr 1 irredT11 = true := by decide +kernel
theorem irredLen12 : irredT12.length = 335 := by decide +kernel
theorem irredIncr12 : incr 1 irredT12 = true := by decide +kernel
theorem irredLen13 : irredT13.length = 630 := by decide +kernel
theorem irredIncr13 : incr 1 irredT13 = true := by decide +kernel
theorem irredLen14 : irredT14.length = 1161 := by decide +kernel
theorem irredIncr14 : incr 1 irredT14 = true := by decide +kernel
theorem irredLen15 : irredT15.length = 2182 := by decide +kernel
theorem irredIncr15 : incr 1 irredT15 = true := by decide +kernel
theorem irredLen16 : irredT16.length = 4080 := by decide +kernel
theorem irredIncr16 : incr 1 irredT16 = true := by decide +kernel
theorem irredAll2 : irredT2.all (check 2) = true := by
  unfold irredT2
  simp only [List.all_append, irredChk2_0, Bool.and_self]
theorem irredAll3 : irredT3.all (check 3) = true := by
  unfold irredT3
  simp only [List.all_append, irredChk3_0, Bool.and_self]
theorem irredAll4 : irredT4.all (check 4) = true := by
  unfold irredT4
  simp only [List.all_append, irredChk4_0, Bool.and_self]
theorem irredAll5 : irredT5.all (check 5) = true := by
  unfold irredT5
  simp only [List.all_append, irredChk5_0, Bool.and_self]
theorem irredAll6 : irredT6.all (check 6) = true := by
  unfold irredT6
  simp only [List.all_append, irredChk6_0, Bool.and_self]
theorem irredAll7 : irredT7.all (check 7) = true := by
  unfold irredT7
  simp only [List.all_append, irredChk7_0, Bool.and_self]
theorem irredAll8 : irredT8.all (check 8) = true := by
  unfold irredT8
  simp only [List.all_append, irredChk8_0, Bool.and_self]
theorem irredAll9 : irredT9.all (check 9) = true := by
  unfold irredT9
  simp only [List.all_append, irredChk9_0, Bool.and_self]
theorem irredAll10 : irredT10.all (check 10) = true := by
  unfold irredT10
  simp only [List.all_append, irredChk10_0, Bool.and_self]
theorem irredAll11 : irredT11.all (check 11) = true := by
  unfold irredT11
  simp only [List.all_append, irredChk11_0, irredChk11_1, Bool.and_self]
theorem irredAll12 : irredT12.all (check 12) = true := by
  unfold irredT12
  simp only [List.all_append, irredChk12_0, irredChk12_1, irredChk12_2, Bool.and_self]
theorem irredAll13 : irredT13.all (check 13) = true := by
  unfold irredT13
  simp only [List.all_append, irredChk13_0, irredChk13_1, irredChk13_2, irredChk13_3, irredChk13_4, irredChk13_5, Bool.and_self]
theorem irredAll14 : irredT14.all (check 14) = true := by
  unfold irredT14
  simp only [List.all_append, irredChk14_0, irredChk14_1, irredChk14_2, irredChk14_3, irredChk14_4, irredChk14_5, irredChk14_6, irredChk14_7, irredChk14_8, irredChk14_9, Bool.and_self]
theorem irredAll15 : irredT15.all (check 15) = true := by
  unfold irredT15
  simp only [List.all_append, irredChk15_0, irredChk15_1, irredChk15_2, irredChk15_3, irredChk15_4, irredChk15_5, irredChk15_6, irredChk15_7, irredChk15_8, irredChk15_9, irredChk15_10, irredChk15_11, irredChk15_12, irredChk15_13, irredChk15_14, irredChk15_15, irredChk15_16, irredChk15_17, irredChk15_18, Bool.and_self]
theorem irredAll16 : irredT16.all (check 16) = true := by
  unfold irredT16
  simp only [List.all_append, irredChk16_0, irredChk16_1, irredChk16_2, irredChk16_3, irredChk16_4, irredChk16_5, irredChk16_6, irredChk16_7, irredChk16_8, irredChk16_9, irredChk16_10, irredChk16_11, irredChk16_12, irredChk16_13, irredChk16_14, irredChk16_15, irredChk16_16, irredChk16_17, irredChk16_18, irredChk16_19, irredChk16_20, irredChk16_21, irredChk16_22, irredChk16_23, irredChk16_24, irredChk16_25, irredChk16_26, irredChk16_27, irredChk16_28, irredChk16_29, irredChk16_30, irredChk16_31, irredChk16_32, irredChk16_33, Bool.and_self]

end M4rie.BenOr
