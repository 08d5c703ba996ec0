import Verif.Model.IrredTables
import Verif.Proofs.BenOr

namespace M4rie.BenOr

theorem irredChk15_0 : irredT15_0.all (check 15) = true := by decide +kernel
theorem irredChk15_1 : irredT15_1.all (check 15) = true := by decide +kernel
theorem irredChk15_2 : irredT15_2.all (check 15) = true := by decide +kernel
theorem irredChk15_3 : irredT15_3.all (check 15) = true := by decide +kernel
theorem irredChk15_4 : irredT15_4.all (check 15) = true := by decide +kernel
theorem irredChk15_5 : irredT15_5.all (check 15) = true := by decide +kernel
theorem irredChk15_6 : irredT15_6.all (check 15) = true := by decide +kernel
theorem irredChk15_7 : irredT15_7.all (check 15) = true := by decide +kernel
theorem irredChk15_8 : irredT15_8.all (check 15) = true := by decide +kernel
theorem irredChk15_9 : irredT15_9.all (check 15) = true := by decide +kernel
theorem irredChk15_10 : irredT15_10.all (check 15) = true := by decide +kernel
theorem irredChk15_11 : irredT15_11.all (check 15) = true := by decide +kernel
theorem irredChk15_12 : irredT15_12.all (check 15) = true := by decide +kernel
theorem irredChk15_13 : irredT15_13.all (check 15) = true := by decide +kernel
theorem irredChk15_14 : irredT15_14.all (check 15) = true := by decide +kernel
theorem irredChk15_15 : irredT15_15.all (check 15) = true := by decide +kernel
theorem irredChk15_16 : irredT15_16.all (check 15) = true := by decide +kernel
theorem irredChk15_17 : irredT15_17.all (check 15) = true := by decide +kernel
theorem irredChk15_18 : irredT15_18.all (check 15) = true := by decide +kernel

end M4rie.BenOr
