import Verif.Cpu50.Model
import Verif.Cpu50.Isa
import Mathlib.Tactic.IntervalCases

/-!
# Model 2050: bits of instruction words

Arithmetic of the fields of an instruction in a 32 bit register.
-/

namespace Verif.Cpu50
open Verif.S360

theorem hi_toNat (x : W) (i : BitVec 16) (h : x.extractLsb' 16 16 = i) :
    i.toNat = x.toNat / 65536 := by
  have := x.isLt
  rw [← h]; simp [BitVec.extractLsb'_toNat, Nat.shiftRight_eq_div_pow]; omega

theorem lo_toNat (x : W) (i : BitVec 16) (h : x.extractLsb' 0 16 = i) :
    i.toNat = x.toNat % 65536 := by
  rw [← h]; simp [BitVec.extractLsb'_toNat]

theorem opOf_toNat (i : BitVec 16) : (opOf i).toNat = i.toNat / 256 := by
  have := i.isLt
  simp [opOf, BitVec.extractLsb'_toNat, Nat.shiftRight_eq_div_pow]; omega

theorem dig1_toNat (i : BitVec 16) : (dig1 i).toNat = i.toNat / 16 % 16 := by
  simp [dig1, BitVec.extractLsb'_toNat, Nat.shiftRight_eq_div_pow]

theorem dig2_toNat (i : BitVec 16) : (dig2 i).toNat = i.toNat % 16 := by
  simp [dig2, BitVec.extractLsb'_toNat]

theorem sw16 {x : W} {i : BitVec 16} (h : x.extractLsb' 16 16 = i) :
    BitVec.setWidth 4 (x >>> 16) = dig2 i := by
  apply BitVec.eq_of_toNat_eq
  rw [dig2_toNat, hi_toNat x i h]
  simp [Nat.shiftRight_eq_div_pow]

theorem sw20 {x : W} {i : BitVec 16} (h : x.extractLsb' 16 16 = i) :
    BitVec.setWidth 4 (x >>> 20) = dig1 i := by
  apply BitVec.eq_of_toNat_eq
  rw [dig1_toNat, hi_toNat x i h]
  simp [Nat.shiftRight_eq_div_pow]; omega

theorem nib7 {x : W} {i : BitVec 16} (h : x.extractLsb' 16 16 = i) :
    nib x 7 = (opOf i).toNat / 16 := by
  have := x.isLt
  rw [opOf_toNat, hi_toNat x i h]; simp only [nib]; omega

theorem nib6 {x : W} {i : BitVec 16} (h : x.extractLsb' 16 16 = i) :
    nib x 6 = (opOf i).toNat % 16 := by
  rw [opOf_toNat, hi_toNat x i h]; simp only [nib]; omega

/-- The two bits of an operation code which give the length, from the register. -/
theorem top2 (x : W) : x &&& 0xc0000000#32 = BitVec.ofNat 32 (x.toNat / 2 ^ 30 * 2 ^ 30) := by
  have : x &&& 0xc0000000#32 = (x >>> 30) <<< 30 := by
    apply BitVec.eq_of_getLsbD_eq
    intro i hi
    interval_cases i <;> simp
  rw [this]
  apply BitVec.eq_of_toNat_eq
  simp [Nat.shiftRight_eq_div_pow, Nat.shiftLeft_eq]

theorem ilcOf_rr {x : W} {i : BitVec 16} (h : x.extractLsb' 16 16 = i)
    (hop : (opOf i).toNat < 0x40) : ilcOf x = 1 := by
  have h0 := x.isLt
  rw [opOf_toNat, hi_toNat x i h] at hop
  have h1 : x.toNat / 2 ^ 30 = 0 := by omega
  unfold ilcOf
  rw [if_pos]
  show x &&& 0xc0000000#32 = 0
  rw [top2, h1]; rfl

theorem ilcOf_rx {x : W} {i : BitVec 16} (h : x.extractLsb' 16 16 = i)
    (hop : 0x40 ≤ (opOf i).toNat) (hop2 : (opOf i).toNat < 0xc0) : ilcOf x = 2 := by
  have h0 := x.isLt
  rw [opOf_toNat, hi_toNat x i h] at hop hop2
  have h1 : x.toNat / 2 ^ 30 = 1 ∨ x.toNat / 2 ^ 30 = 2 := by omega
  unfold ilcOf
  rw [if_neg, if_neg]
  · show ¬ x &&& 0xc0000000#32 = _
    rw [top2]; rcases h1 with h1 | h1 <;> rw [h1] <;> decide
  · show ¬ x &&& 0xc0000000#32 = _
    rw [top2]; rcases h1 with h1 | h1 <;> rw [h1] <;> decide

theorem shl16_hi (x : W) : (x <<< 16).extractLsb' 16 16 = x.extractLsb' 0 16 := by
  apply BitVec.eq_of_getLsbD_eq
  intro i hi
  interval_cases i <;> simp

/-- `1SYLS`: the operation code in the right half of the register is one of RR. -/
theorem syl_rr {x : W} {i : BitVec 16} (h : x.extractLsb' 0 16 = i) :
    (x &&& 0xc000#32 == 0#32) = decide ((opOf i).toNat < 0x40) := by
  have h2 : x &&& 0xc000#32 = BitVec.ofNat 32 (x.toNat / 2 ^ 14 % 4 * 2 ^ 14) := by
    have : x &&& 0xc000#32 = ((x >>> 14) <<< 30) >>> 16 := by
      apply BitVec.eq_of_getLsbD_eq
      intro i hi
      interval_cases i <;> simp
    rw [this]
    apply BitVec.eq_of_toNat_eq
    simp [Nat.shiftRight_eq_div_pow, Nat.shiftLeft_eq]; omega
  rw [h2, opOf_toNat, lo_toNat x i h]
  have : x.toNat / 2 ^ 14 % 4 < 4 := by omega
  by_cases h3 : x.toNat / 2 ^ 14 % 4 = 0
  · have : x.toNat % 65536 / 256 < 64 := by omega
    rw [h3]; simp [this]
  · have : ¬ x.toNat % 65536 / 256 < 64 := by omega
    simp only [this, decide_false, beq_eq_false_iff_ne]
    intro h4
    have h5 := congrArg BitVec.toNat h4
    simp at h5; omega

/-- `1SYLS` as set from bits 12-15 of the register. -/
theorem syl12 (x : W) : (BitVec.setWidth 4 (x >>> 12) &&& 12#4 == 0#4) =
    (x &&& 0xc000#32 == 0#32) := by
  have h1 : BitVec.setWidth 4 (x >>> 12) &&& 12#4 =
      BitVec.setWidth 4 ((x &&& 0xc000#32) >>> 12) := by
    apply BitVec.eq_of_getLsbD_eq
    intro i hi
    interval_cases i <;> simp
  have h2 : x &&& 0xc000#32 = (BitVec.setWidth 4 ((x &&& 0xc000#32) >>> 12)).setWidth 32 <<< 12 := by
    apply BitVec.eq_of_getLsbD_eq
    intro i hi
    interval_cases i <;> simp
  rw [h1]
  by_cases h : x &&& 0xc000#32 = 0#32
  · rw [h]; rfl
  · have : BitVec.setWidth 4 ((x &&& 0xc000#32) >>> 12) ≠ 0#4 := by
      intro h3; rw [h3] at h2; exact h h2
    rw [beq_eq_false_iff_ne.2 this, beq_eq_false_iff_ne.2 h]

/-- Bits 12-15 of the register, the first digit of its right half. -/
theorem sw12 {x : W} {i : BitVec 16} (h : x.extractLsb' 0 16 = i) :
    BitVec.setWidth 4 (x >>> 12) = i.extractLsb' 12 4 := by
  apply BitVec.eq_of_toNat_eq
  have := lo_toNat x i h
  simp [BitVec.extractLsb'_toNat, Nat.shiftRight_eq_div_pow, this]; omega

/-- Bits 28-31 of the register, the first digit of its left half. -/
theorem sw28 {x : W} {i : BitVec 16} (h : x.extractLsb' 16 16 = i) :
    BitVec.setWidth 4 (x >>> 28) = i.extractLsb' 12 4 := by
  apply BitVec.eq_of_toNat_eq
  have := hi_toNat x i h
  have := x.isLt
  simp [BitVec.extractLsb'_toNat, Nat.shiftRight_eq_div_pow, this]; omega

/-- Is the first digit of the left half zero. -/
theorem top4 {x : W} {i : BitVec 16} (h : x.extractLsb' 16 16 = i) :
    (x &&& 0xf0000000#32 == 0#32) = (i.extractLsb' 12 4 == 0) := by
  rw [← sw28 h]
  have h1 : BitVec.setWidth 4 (x >>> 28) = BitVec.setWidth 4 ((x &&& 0xf0000000#32) >>> 28) := by
    apply BitVec.eq_of_getLsbD_eq
    intro i hi
    interval_cases i <;> simp
  have h2 : x &&& 0xf0000000#32 =
      (BitVec.setWidth 4 ((x &&& 0xf0000000#32) >>> 28)).setWidth 32 <<< 28 := by
    apply BitVec.eq_of_getLsbD_eq
    intro i hi
    interval_cases i <;> simp
  rw [h1]
  by_cases h : x &&& 0xf0000000#32 = 0#32
  · rw [h]; rfl
  · have : BitVec.setWidth 4 ((x &&& 0xf0000000#32) >>> 28) ≠ 0#4 := by
      intro h3; rw [h3] at h2; exact h h2
    rw [beq_eq_false_iff_ne.2 h]; exact (beq_eq_false_iff_ne.2 this).symm

/-- Word 188 clears the digit of the base register. -/
theorem clear_base (x : W) : putByte x 2#2 (byteOf x 2#2 &&& 15#8) = x &&& 0xffff0fff#32 := by
  show (x &&& ~~~(0xff#32 <<< 8)) ||| (((x >>> 8).setWidth 8 &&& 15#8).setWidth 32 <<< 8) = _
  apply BitVec.eq_of_getLsbD_eq
  intro i hi
  interval_cases i <;> simp

theorem clear_hi (x : W) : (x &&& 0xffff0fff#32).extractLsb' 16 16 = x.extractLsb' 16 16 := by
  apply BitVec.eq_of_getLsbD_eq
  intro i hi
  interval_cases i <;> simp

theorem clear_lo (x : W) : (x &&& 0xffff0fff#32) &&& 0xffff#32 =
    ((x.extractLsb' 0 16).extractLsb' 0 12).setWidth 32 := by
  apply BitVec.eq_of_getLsbD_eq
  intro i hi
  interval_cases i <;> simp

/-- `MHL`: the left half of one register beside the left half of another. -/
theorem mhl_hi (m d : W) : (m &&& 0xffff0000#32 ||| d >>> 16).extractLsb' 16 16 =
    m.extractLsb' 16 16 := by
  apply BitVec.eq_of_getLsbD_eq
  intro i hi
  interval_cases i <;> simp

theorem mhl_lo (m d : W) : (m &&& 0xffff0000#32 ||| d >>> 16).extractLsb' 0 16 =
    d.extractLsb' 16 16 := by
  apply BitVec.eq_of_getLsbD_eq
  intro i hi
  interval_cases i <;> simp

/-- Is the first operation code bit pair 01. -/
theorem rxBits {x : W} {i : BitVec 16} (h : x.extractLsb' 16 16 = i) :
    (x &&& 0xc0000000#32 == 0x40000000#32) = decide ((opOf i).toNat / 64 = 1) := by
  have h0 := x.isLt
  rw [top2, opOf_toNat, hi_toNat x i h]
  have h1 : x.toNat / 2 ^ 30 = 0 ∨ x.toNat / 2 ^ 30 = 1 ∨ x.toNat / 2 ^ 30 = 2 ∨
    x.toNat / 2 ^ 30 = 3 := by omega
  have h2 : x.toNat / 65536 / 256 / 64 = x.toNat / 2 ^ 30 := by omega
  rw [h2]
  rcases h1 with h1 | h1 | h1 | h1 <;> rw [h1] <;> decide

end Verif.Cpu50
