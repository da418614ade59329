import Verif.Ctl2844.Basic

/-!
# The 2844: the words of control storage the proofs go through

Fields in the order of `Word`: `ca cb ck cl ch cn cd cv cc cs bp`.
-/

namespace Verif.Ctl2844

theorem w000 : ros 0x000 = ⟨0, 0, 5, 1, 8, 180, 0, 0, 0, 0, 1⟩ := by decide +kernel
theorem w502 : ros 0x502 = ⟨24, 0, 0, 0, 1, 4, 24, 0, 6, 0, 1⟩ := by decide +kernel
theorem w503 : ros 0x503 = ⟨21, 0, 0, 1, 0, 16, 8, 0, 4, 15, 1⟩ := by decide +kernel
theorem w506 : ros 0x506 = ⟨2, 2, 125, 2, 1, 12, 2, 0, 4, 0, 1⟩ := by decide +kernel
theorem w508 : ros 0x508 = ⟨22, 2, 192, 1, 1, 12, 12, 0, 2, 9, 1⟩ := by decide +kernel
theorem w509 : ros 0x509 = ⟨25, 2, 240, 11, 0, 20, 11, 0, 2, 12, 1⟩ := by decide +kernel
theorem w50e : ros 0x50e = ⟨20, 0, 0, 10, 1, 0, 12, 0, 6, 0, 1⟩ := by decide +kernel
theorem w50f : ros 0x50f = ⟨21, 0, 0, 10, 4, 8, 8, 0, 4, 15, 1⟩ := by decide +kernel
theorem w511 : ros 0x511 = ⟨25, 2, 240, 11, 4, 20, 11, 0, 2, 12, 1⟩ := by decide +kernel
theorem w512 : ros 0x512 = ⟨26, 1, 0, 1, 0, 32, 10, 0, 3, 0, 1⟩ := by decide +kernel
theorem w515 : ros 0x515 = ⟨3, 1, 0, 0, 2, 32, 0, 0, 7, 13, 1⟩ := by decide +kernel
theorem w518 : ros 0x518 = ⟨26, 2, 1, 11, 13, 52, 10, 0, 3, 7, 1⟩ := by decide +kernel
theorem w51d : ros 0x51d = ⟨0, 2, 129, 4, 1, 68, 13, 0, 0, 4, 1⟩ := by decide +kernel
theorem w520 : ros 0x520 = ⟨3, 2, 15, 12, 1, 16, 2, 0, 2, 7, 1⟩ := by decide +kernel
theorem w521 : ros 0x521 = ⟨26, 2, 15, 1, 1, 32, 2, 0, 2, 0, 1⟩ := by decide +kernel
theorem w523 : ros 0x523 = ⟨18, 0, 0, 1, 1, 36, 0, 0, 0, 9, 1⟩ := by decide +kernel
theorem w527 : ros 0x527 = ⟨11, 1, 0, 1, 0, 28, 11, 0, 3, 0, 1⟩ := by decide +kernel
theorem w534 : ros 0x534 = ⟨26, 2, 3, 12, 14, 56, 10, 0, 3, 0, 1⟩ := by decide +kernel
theorem w538 : ros 0x538 = ⟨26, 2, 2, 13, 15, 60, 10, 0, 0, 0, 1⟩ := by decide +kernel
theorem w53c : ros 0x53c = ⟨26, 2, 7, 15, 3, 64, 10, 0, 3, 0, 1⟩ := by decide +kernel
theorem w540 : ros 0x540 = ⟨26, 2, 240, 4, 0, 68, 10, 0, 2, 15, 1⟩ := by decide +kernel
theorem w544 : ros 0x544 = ⟨1, 2, 8, 0, 1, 12, 15, 0, 3, 13, 1⟩ := by decide +kernel
theorem w547 : ros 0x547 = ⟨0, 2, 1, 1, 1, 80, 15, 0, 0, 0, 1⟩ := by decide +kernel
theorem w553 : ros 0x553 = ⟨26, 2, 15, 0, 3, 88, 8, 0, 2, 0, 1⟩ := by decide +kernel
theorem w5b5 : ros 0x5b5 = ⟨0, 2, 159, 0, 9, 184, 9, 0, 0, 5, 1⟩ := by decide +kernel
theorem w5b8 : ros 0x5b8 = ⟨0, 2, 1, 1, 0, 184, 13, 0, 0, 4, 1⟩ := by decide +kernel
theorem w5b9 : ros 0x5b9 = ⟨26, 2, 240, 4, 0, 192, 10, 0, 2, 0, 1⟩ := by decide +kernel
theorem w5c0 : ros 0x5c0 = ⟨17, 0, 0, 0, 0, 24, 8, 0, 0, 0, 1⟩ := by decide +kernel
theorem w54c : ros 0x54c = ⟨0, 2, 136, 13, 15, 84, 2, 0, 0, 0, 1⟩ := by decide +kernel
theorem w54d : ros 0x54d = ⟨0, 2, 68, 13, 15, 84, 2, 0, 0, 0, 1⟩ := by decide +kernel
theorem w54e : ros 0x54e = ⟨0, 2, 34, 13, 15, 84, 2, 0, 0, 0, 1⟩ := by decide +kernel
theorem w54f : ros 0x54f = ⟨0, 2, 17, 13, 15, 84, 2, 0, 0, 0, 1⟩ := by decide +kernel
theorem w554 : ros 0x554 = ⟨2, 2, 240, 4, 0, 92, 2, 0, 2, 0, 1⟩ := by decide +kernel
theorem w555 : ros 0x555 = ⟨2, 2, 15, 4, 0, 92, 2, 0, 2, 0, 1⟩ := by decide +kernel
theorem w558 : ros 0x558 = ⟨0, 2, 104, 15, 3, 76, 12, 0, 0, 0, 1⟩ := by decide +kernel
theorem w55a : ros 0x55a = ⟨0, 2, 134, 15, 3, 76, 12, 0, 0, 0, 1⟩ := by decide +kernel
theorem w55d : ros 0x55d = ⟨21, 2, 3, 1, 10, 92, 8, 0, 2, 0, 1⟩ := by decide +kernel
theorem w55f : ros 0x55f = ⟨18, 2, 64, 15, 1, 232, 1, 0, 7, 0, 1⟩ := by decide +kernel

end Verif.Ctl2844
