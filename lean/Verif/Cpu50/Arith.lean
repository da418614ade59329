import Verif.Cpu50.Model
import Verif.Cpu50.Isa
import Mathlib.Tactic.IntervalCases

/-!
# Model 2050: the adder

The carries the simulator computes from the operands and the sum, as statements about the
numbers added.
-/

namespace Verif.Cpu50
open Verif.S360

theorem bit31 (x : W) : x.msb = decide (2 ^ 31 ≤ x.toNat) := by
  rw [BitVec.msb_eq_decide]

theorem bit30 (x : W) : x.getMsbD 1 = decide (2 ^ 30 ≤ x.toNat % 2 ^ 31) := by
  have h := x.isLt
  have h1 : x.getMsbD 1 = x.toNat.testBit 30 := by
    simp [BitVec.getMsbD, BitVec.getLsbD]
  rw [h1, Nat.testBit_eq_decide_div_mod_eq]
  congr 1
  apply propext
  constructor <;> intro h2 <;> omega

/-- Carry out of the adder. -/
theorem carry_out (l r c : W) (hc : c.toNat ≤ 1) :
    (carriesOf l r (l + r + c)).msb = decide (2 ^ 32 ≤ l.toNat + r.toNat + c.toNat) := by
  have hl := l.isLt
  have hr := r.isLt
  have h : (carriesOf l r (l + r + c)).msb =
      ((l.msb && r.msb) || ((l.msb ^^ r.msb) && !(l + r + c).msb)) := by
    simp [carriesOf]
  rw [h, bit31, bit31, bit31, BitVec.toNat_add, BitVec.toNat_add]
  by_cases h1 : 2 ^ 31 ≤ l.toNat <;> by_cases h2 : 2 ^ 31 ≤ r.toNat <;>
    simp only [h1, h2, decide_true, decide_false, Bool.and_true, Bool.and_false, Bool.or_false,
      Bool.false_or, Bool.or_true, Bool.true_and, Bool.false_and, Bool.xor_true, Bool.xor_false,
      Bool.not_false, Bool.not_true, Bool.true_or] <;>
    first
      | (symm; rw [decide_eq_true_eq]; omega)
      | (symm; rw [decide_eq_false_iff_not]; omega)
      | (rw [← decide_not]; congr 1; apply propext; constructor <;> intro h3 <;> omega)

/-- Carry into the sign position. -/
theorem carry_in (l r c : W) (hc : c.toNat ≤ 1) :
    (carriesOf l r (l + r + c)).getMsbD 1 =
      decide (2 ^ 31 ≤ l.toNat % 2 ^ 31 + r.toNat % 2 ^ 31 + c.toNat) := by
  have hl := l.isLt
  have hr := r.isLt
  have h : (carriesOf l r (l + r + c)).getMsbD 1 =
      ((l.getMsbD 1 && r.getMsbD 1) ||
        ((l.getMsbD 1 ^^ r.getMsbD 1) && !(l + r + c).getMsbD 1)) := by
    simp [carriesOf]
  rw [h, bit30, bit30, bit30, BitVec.toNat_add, BitVec.toNat_add]
  by_cases h1 : 2 ^ 30 ≤ l.toNat % 2 ^ 31 <;> by_cases h2 : 2 ^ 30 ≤ r.toNat % 2 ^ 31 <;>
    simp only [h1, h2, decide_true, decide_false, Bool.and_true, Bool.and_false, Bool.or_false,
      Bool.false_or, Bool.or_true, Bool.true_and, Bool.false_and, Bool.xor_true, Bool.xor_false,
      Bool.not_false, Bool.not_true, Bool.true_or] <;>
    first
      | (symm; rw [decide_eq_true_eq]; omega)
      | (symm; rw [decide_eq_false_iff_not]; omega)
      | (rw [← decide_not]; congr 1; apply propext; constructor <;> intro h3 <;> omega)

/-- The result fits a word. -/
def fits (v : Int) : Prop := -2 ^ 31 ≤ v ∧ v < 2 ^ 31

instance (v : Int) : Decidable (fits v) := inferInstanceAs (Decidable (_ ∧ _))

theorem toInt_cases (x : W) : (x.toNat < 2 ^ 31 ∧ x.toInt = x.toNat) ∨
    (2 ^ 31 ≤ x.toNat ∧ x.toInt = (x.toNat : Int) - 2 ^ 32) := by
  have := x.isLt
  rw [BitVec.toInt_eq_toNat_cond]
  by_cases h : 2 * x.toNat < 2 ^ 32
  · rw [if_pos h]; left; constructor
    · omega
    · rfl
  · rw [if_neg h]; right; constructor
    · omega
    · rfl

theorem ovf (l r c : W) (hc : c.toNat ≤ 1) :
    ((carriesOf l r (l + r + c)).msb ^^ (carriesOf l r (l + r + c)).getMsbD 1) =
      !decide (fits (l.toInt + r.toInt + c.toNat)) := by
  rw [carry_out l r c hc, carry_in l r c hc]
  have hl := l.isLt
  have hr := r.isLt
  rcases toInt_cases l with ⟨h1, h2⟩ | ⟨h1, h2⟩ <;> rcases toInt_cases r with ⟨h3, h4⟩ | ⟨h3, h4⟩ <;>
    rw [h2, h4] <;>
    by_cases h5 : 2 ^ 32 ≤ l.toNat + r.toNat + c.toNat <;>
    by_cases h6 : 2 ^ 31 ≤ l.toNat % 2 ^ 31 + r.toNat % 2 ^ 31 + c.toNat <;>
    simp only [h5, h6, decide_true, decide_false, Bool.xor_true, Bool.xor_false, Bool.not_true,
      Bool.not_false] <;>
    first
      | (exfalso; omega)
      | (symm; rw [Bool.not_eq_true', decide_eq_false_iff_not, fits]; omega)
      | (symm; rw [Bool.not_eq_false', decide_eq_true_eq, fits]; omega)

theorem fits_toInt (x : W) : fits x.toInt := by
  have := x.isLt
  unfold fits
  rcases toInt_cases x with ⟨h1, h2⟩ | ⟨h1, h2⟩ <;> omega

theorem cin0 (l r : W) : l + r + 0#32 = l + r := by simp

theorem sub_eq (l r : W) : ~~~l + r + 1#32 = r - l := by
  rw [BitVec.sub_eq_add_neg, BitVec.neg_eq_not_add]
  rw [BitVec.add_comm (~~~l) r, BitVec.add_assoc]

theorem neg_eq (l : W) : ~~~l + 1#32 = -l := (BitVec.neg_eq_not_add l).symm

theorem not_toInt (l : W) : (~~~l).toInt = -l.toInt - 1 := by
  have := l.isLt
  have h : (~~~l).toNat = 2 ^ 32 - 1 - l.toNat := BitVec.toNat_not
  rcases toInt_cases l with ⟨h1, h2⟩ | ⟨h1, h2⟩ <;>
    rcases toInt_cases (~~~l) with ⟨h3, h4⟩ | ⟨h3, h4⟩ <;> omega

theorem ovf_add (l r : W) :
    ((carriesOf l r (l + r)).msb ^^ (carriesOf l r (l + r)).getMsbD 1) =
      !decide (fits (r.toInt + l.toInt)) := by
  have h := ovf l r 0#32 (by decide)
  rw [cin0] at h
  rw [h, Int.add_comm r.toInt]; simp

theorem ovf_sub (l r : W) :
    ((carriesOf (~~~l) r (~~~l + r + 1#32)).msb ^^
      (carriesOf (~~~l) r (~~~l + r + 1#32)).getMsbD 1) =
      !decide (fits (r.toInt - l.toInt)) := by
  rw [ovf (~~~l) r 1#32 (by decide), not_toInt]
  have h : -l.toInt - 1 + r.toInt + ((1#32).toNat : Int) = r.toInt - l.toInt := by
    have : (1#32).toNat = 1 := rfl
    rw [this]; omega
  rw [h]

theorem ovf_neg (l : W) :
    ((carriesOf (~~~l) 0#32 (~~~l + 1#32)).msb ^^
      (carriesOf (~~~l) 0#32 (~~~l + 1#32)).getMsbD 1) = !decide (fits (-l.toInt)) := by
  have h := ovf_sub l 0#32
  rw [show ~~~l + 0#32 + 1#32 = ~~~l + 1#32 by simp] at h
  rw [h]; simp

theorem carry_add (l r : W) :
    (carriesOf l r (l + r)).msb = decide (2 ^ 32 ≤ r.toNat + l.toNat) := by
  have h := carry_out l r 0#32 (by decide)
  rw [cin0] at h
  rw [h, Nat.add_comm r.toNat]; simp

/-- No borrow. -/
theorem carry_sub (l r : W) :
    (carriesOf (~~~l) r (~~~l + r + 1#32)).msb = decide (l.toNat ≤ r.toNat) := by
  rw [carry_out (~~~l) r 1#32 (by decide), BitVec.toNat_not]
  have hl := l.isLt
  have hr := r.isLt
  have : (1#32).toNat = 1 := rfl
  rw [this]
  congr 1
  apply propext
  constructor <;> intro h <;> omega

theorem carry_zero (x : W) : (carriesOf 0#32 x x).msb = false := by
  have h := carry_add 0#32 x
  rw [show 0#32 + x = x by simp] at h
  rw [h, decide_eq_false_iff_not]
  have := x.isLt
  have : (0#32).toNat = 0 := rfl
  omega

/-- Condition code of an arithmetic result, as the microinstructions set it. -/
theorem cc_sign (x : W) :
    (if x = 0#32 then 0#2 else if x.msb = true then 1#2 else 2#2) = ccSign x.toInt := by
  unfold ccSign
  by_cases h : x = 0#32
  · subst h; rfl
  · have h1 : ¬ x.toInt = 0 := by
      intro h2
      exact h (BitVec.eq_of_toInt_eq (h2.trans rfl))
    rw [if_neg h, if_neg h1, BitVec.msb_eq_toInt]
    by_cases h3 : x.toInt < 0
    · simp [h3]
    · simp [h3]

theorem ofInt_add (l r : W) : BitVec.ofInt 32 (r.toInt + l.toInt) = l + r := by
  rw [BitVec.ofInt_add, BitVec.ofInt_toInt, BitVec.ofInt_toInt, BitVec.add_comm]

theorem ofInt_sub (l r : W) : BitVec.ofInt 32 (r.toInt - l.toInt) = r - l := by
  rw [Int.sub_eq_add_neg, BitVec.ofInt_add, BitVec.ofInt_neg, BitVec.ofInt_toInt,
    BitVec.ofInt_toInt, ← BitVec.sub_eq_add_neg]

theorem ofInt_neg (l : W) : BitVec.ofInt 32 (-l.toInt) = -l := by
  rw [BitVec.ofInt_neg, BitVec.ofInt_toInt]

/-- A number that fits is the number of its word. -/
theorem toInt_ofInt {v : Int} (h : fits v) : (BitVec.ofInt 32 v).toInt = v := by
  rw [BitVec.toInt_ofInt]
  unfold fits at h
  exact Int.bmod_eq_of_le (by omega) (by omega)

theorem add_toInt {l r : W} (h : fits (r.toInt + l.toInt)) :
    (l + r).toInt = r.toInt + l.toInt := by rw [← ofInt_add, toInt_ofInt h]

theorem sub_toInt {l r : W} (h : fits (r.toInt - l.toInt)) :
    (r - l).toInt = r.toInt - l.toInt := by rw [← ofInt_sub, toInt_ofInt h]

theorem neg_toInt {l : W} (h : fits (-l.toInt)) : (-l).toInt = -l.toInt := by
  rw [← ofInt_neg, toInt_ofInt h]

end Verif.Cpu50
