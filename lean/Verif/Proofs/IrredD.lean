import Verif.Model.IrredTables
import Verif.Proofs.BenOr

namespace M4rie.BenOr

theorem irredChk16_17 : irredT16_17.all (check 16) = true := by decide +kernel
theorem irredChk16_18 : irredT16_18.all (check 16) = true := by decide +kernel
theorem irredChk16_19 : irredT16_19.all (check 16) = true := by decide +kernel
theorem irredChk16_20 : irredT16_20.all (check 16) = true := by decide +kernel
theorem irredChk16_21 : irredT16_21.all (check 16) = true := by decide +kernel
theorem irredChk16_22 : irredT16_22.all (check 16) = true := by decide +kernel
theorem irredChk16_23 : irredT16_23.all (check 16) = true := by decide +kernel
theorem irredChk16_24 : irredT16_24.all (check 16) = true := by decide +kernel
theorem irredChk16_25 : irredT16_25.all (check 16) = true := by decide +kernel
theorem irredChk16_26 : irredT16_26.all (check 16) = true := by decide +kernel
theorem irredChk16_27 : irredT16_27.all (check 16) = true := by decide +kernel
theorem irredChk16_28 : irredT16_28.all (check 16) = true := by decide +kernel
theorem irredChk16_29 : irredT16_29.all (check 16) = true := by decide +kernel
theorem irredChk16_30 : irredT16_30.all (check 16) = true := by decide +kernel
theorem irredChk16_31 : irredT16_31.all (check 16) = true := by decide +kernel
theorem irredChk16_32 : irredT16_32.all (check 16) = true := by decide +kernel
theorem irredChk16_33 : irredT16_33.all (check 16) = true := by decide +kernel

end M4rie.BenOr
