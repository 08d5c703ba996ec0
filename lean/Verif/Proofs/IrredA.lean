import Verif.Model.IrredTables
import Verif.Proofs.BenOr

namespace M4rie.BenOr

theorem irredChk2_0 : irredT2_0.all (check 2) = true := by decide +kernel
theorem irredChk3_0 : irredT3_0.all (check 3) = true := by decide +kernel
theorem irredChk4_0 : irredT4_0.all (check 4) = true := by decide +kernel
theorem irredChk5_0 : irredT5_0.all (check 5) = true := by decide +kernel
theorem irredChk6_0 : irredT6_0.all (check 6) = true := by decide +kernel
theorem irredChk7_0 : irredT7_0.all (check 7) = true := by decide +kernel
theorem irredChk8_0 : irredT8_0.all (check 8) = true := by decide +kernel
theorem irredChk9_0 : irredT9_0.all (check 9) = true := by decide +kernel
theorem irredChk10_0 : irredT10_0.all (check 10) = true := by decide +kernel
theorem irredChk11_0 : irredT11_0.all (check 11) = true := by decide +kernel
theorem irredChk11_1 : irredT11_1.all (check 11) = true := by decide +kernel
theorem irredChk12_0 : irredT12_0.all (check 12) = true := by decide +kernel
theorem irredChk12_1 : irredT12_1.all (check 12) = true := by decide +kernel
theorem irredChk12_2 : irredT12_2.all (check 12) = true := by decide +kernel
theorem irredChk13_0 : irredT13_0.all (check 13) = true := by decide +kernel
theorem irredChk13_1 : irredT13_1.all (check 13) = true := by decide +kernel
theorem irredChk13_2 : irredT13_2.all (check 13) = true := by decide +kernel
theorem irredChk13_3 : irredT13_3.all (check 13) = true := by decide +kernel
theorem irredChk13_4 : irredT13_4.all (check 13) = true := by decide +kernel
theorem irredChk13_5 : irredT13_5.all (check 13) = true := by decide +kernel
theorem irredChk14_0 : irredT14_0.all (check 14) = true := by decide +kernel
theorem irredChk14_1 : irredT14_1.all (check 14) = true := by decide +kernel
theorem irredChk14_2 : irredT14_2.all (check 14) = true := by decide +kernel
theorem irredChk14_3 : irredT14_3.all (check 14) = true := by decide +kernel
theorem irredChk14_4 : irredT14_4.all (check 14) = true := by decide +kernel
theorem irredChk14_5 : irredT14_5.all (check 14) = true := by decide +kernel
theorem irredChk14_6 : irredT14_6.all (check 14) = true := by decide +kernel
theorem irredChk14_7 : irredT14_7.all (check 14) = true := by decide +kernel
theorem irredChk14_8 : irredT14_8.all (check 14) = true := by decide +kernel
theorem irredChk14_9 : irredT14_9.all (check 14) = true := by decide +kernel

end M4rie.BenOr
