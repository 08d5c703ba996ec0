import Verif.Model.IrredTables
import Verif.Proofs.BenOr

namespace M4rie.BenOr

theorem irredChk16_0 : irredT16_0.all (check 16) = true := by decide +kernel
theorem irredChk16_1 : irredT16_1.all (check 16) = true := by decide +kernel
theorem irredChk16_2 : irredT16_2.all (check 16) = true := by decide +kernel
theorem irredChk16_3 : irredT16_3.all (check 16) = true := by decide +kernel
theorem irredChk16_4 : irredT16_4.all (check 16) = true := by decide +kernel
theorem irredChk16_5 : irredT16_5.all (check 16) = true := by decide +kernel
theorem irredChk16_6 : irredT16_6.all (check 16) = true := by decide +kernel
theorem irredChk16_7 : irredT16_7.all (check 16) = true := by decide +kernel
theorem irredChk16_8 : irredT16_8.all (check 16) = true := by decide +kernel
theorem irredChk16_9 : irredT16_9.all (check 16) = true := by decide +kernel
theorem irredChk16_10 : irredT16_10.all (check 16) = true := by decide +kernel
theorem irredChk16_11 : irredT16_11.all (check 16) = true := by decide +kernel
theorem irredChk16_12 : irredT16_12.all (check 16) = true := by decide +kernel
theorem irredChk16_13 : irredT16_13.all (check 16) = true := by decide +kernel
theorem irredChk16_14 : irredT16_14.all (check 16) = true := by decide +kernel
theorem irredChk16_15 : irredT16_15.all (check 16) = true := by decide +kernel
theorem irredChk16_16 : irredT16_16.all (check 16) = true := by decide +kernel

end M4rie.BenOr
