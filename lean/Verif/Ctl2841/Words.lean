import Verif.Ctl2841.Basic

/-!
# The 2841: the words of control storage the proofs go through

Fields in the order of `Word`: `ca cb ck cl ch cn cd cv cc cs bp`.
-/

namespace Verif.Ctl2841

theorem w000 : ros 0x000 = ⟨0, 0, 21, 0, 8, 148, 11, 0, 0, 0, 0⟩ := by decide +kernel
theorem w594 : ros 0x594 = ⟨0, 2, 143, 4, 0, 144, 9, 0, 0, 0, 0⟩ := by decide +kernel
theorem w590 : ros 0x590 = ⟨0, 0, 0, 1, 1, 176, 10, 0, 0, 0, 0⟩ := by decide +kernel
theorem w5b3 : ros 0x5b3 = ⟨14, 2, 7, 1, 1, 144, 1, 0, 2, 1, 0⟩ := by decide +kernel
theorem w593 : ros 0x593 = ⟨0, 2, 255, 5, 0, 184, 14, 0, 0, 0, 0⟩ := by decide +kernel
theorem w5b9 : ros 0x5b9 = ⟨1, 0, 0, 4, 1, 184, 13, 0, 0, 0, 0⟩ := by decide +kernel
theorem w5ba : ros 0x5ba = ⟨0, 0, 0, 0, 0, 76, 11, 0, 0, 12, 0⟩ := by decide +kernel
theorem w54c : ros 0x54c = ⟨28, 0, 0, 0, 1, 36, 2, 0, 0, 0, 0⟩ := by decide +kernel
theorem w526 : ros 0x526 = ⟨2, 2, 240, 5, 1, 52, 0, 0, 2, 7, 0⟩ := by decide +kernel
theorem w537 : ros 0x537 = ⟨13, 2, 16, 4, 0, 148, 1, 0, 2, 15, 0⟩ := by decide +kernel
theorem w591 : ros 0x591 = ⟨5, 2, 64, 0, 4, 156, 0, 0, 0, 0, 0⟩ := by decide +kernel
theorem w59c : ros 0x59c = ⟨0, 0, 0, 1, 9, 60, 3, 0, 0, 0, 0⟩ := by decide +kernel
theorem w53d : ros 0x53d = ⟨1, 2, 8, 0, 0, 144, 15, 0, 3, 0, 0⟩ := by decide +kernel
theorem w5bb : ros 0x5bb = ⟨13, 0, 0, 10, 1, 180, 8, 0, 0, 0, 0⟩ := by decide +kernel
theorem w5b6 : ros 0x5b6 = ⟨13, 0, 0, 10, 1, 180, 8, 0, 0, 0, 0⟩ := by decide +kernel
theorem w5b7 : ros 0x5b7 = ⟨11, 0, 0, 11, 0, 68, 10, 0, 0, 12, 1⟩ := by decide +kernel
theorem w545 : ros 0x545 = ⟨15, 0, 0, 0, 4, 212, 11, 0, 0, 13, 1⟩ := by decide +kernel
theorem w5d4 : ros 0x5d4 = ⟨11, 1, 0, 1, 2, 0, 1, 0, 7, 10, 0⟩ := by decide +kernel
theorem w501 : ros 0x501 = ⟨11, 0, 0, 12, 1, 20, 8, 0, 0, 7, 1⟩ := by decide +kernel
theorem w516 : ros 0x516 = ⟨0, 2, 1, 13, 0, 240, 15, 0, 0, 0, 0⟩ := by decide +kernel
theorem w5f0 : ros 0x5f0 = ⟨0, 2, 240, 15, 3, 96, 2, 0, 0, 0, 0⟩ := by decide +kernel
theorem w560 : ros 0x560 = ⟨2, 2, 136, 0, 15, 4, 2, 0, 2, 0, 0⟩ := by decide +kernel
theorem w504 : ros 0x504 = ⟨0, 2, 1, 0, 0, 244, 13, 0, 0, 1, 0⟩ := by decide +kernel
theorem w5f4 : ros 0x5f4 = ⟨0, 2, 128, 4, 0, 204, 13, 0, 0, 0, 0⟩ := by decide +kernel
theorem w5cd : ros 0x5cd = ⟨29, 0, 0, 0, 1, 220, 0, 0, 0, 0, 0⟩ := by decide +kernel
theorem w5de : ros 0x5de = ⟨2, 0, 0, 5, 0, 200, 10, 0, 0, 0, 0⟩ := by decide +kernel
theorem w5c9 : ros 0x5c9 = ⟨13, 2, 1, 1, 10, 200, 0, 0, 2, 11, 0⟩ := by decide +kernel
theorem w5f1 : ros 0x5f1 = ⟨0, 2, 15, 15, 3, 96, 2, 0, 0, 0, 0⟩ := by decide +kernel
theorem w561 : ros 0x561 = ⟨2, 2, 68, 0, 15, 4, 2, 0, 2, 0, 0⟩ := by decide +kernel
theorem w562 : ros 0x562 = ⟨2, 2, 34, 0, 15, 4, 2, 0, 2, 0, 0⟩ := by decide +kernel
theorem w563 : ros 0x563 = ⟨2, 2, 17, 0, 15, 4, 2, 0, 2, 0, 0⟩ := by decide +kernel
theorem w506 : ros 0x506 = ⟨0, 2, 4, 0, 15, 244, 13, 0, 0, 1, 0⟩ := by decide +kernel
theorem w5f6 : ros 0x5f6 = ⟨0, 0, 0, 4, 0, 204, 2, 0, 0, 0, 0⟩ := by decide +kernel
theorem w5c8 : ros 0x5c8 = ⟨0, 2, 53, 0, 10, 200, 12, 0, 0, 0, 0⟩ := by decide +kernel

end Verif.Ctl2841
