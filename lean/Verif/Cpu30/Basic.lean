import Verif.Cpu30.Model
import Verif.Xlat.Props
/-! Lemmas on parity, the adder, and the decomposition of a cycle. -/
namespace Verif.Cpu30
open Verif.Xlat (ones)

/-! ## Results -/

@[simp] theorem ok_bind {α β} (a : α) (f : α → Res β) : (Res.ok a >>= f) = f a := rfl
@[simp] theorem oob_bind {α β} (f : α → Res β) : ((Res.oob : Res α) >>= f) = .oob := rfl
@[simp] theorem pure_ok {α} (a : α) : (pure a : Res α) = .ok a := rfl

theorem bind_ok {α β} {x : Res α} {f : α → Res β} {b : β} (h : (x >>= f) = .ok b) : ∃ a, x = .ok a ∧ f a = .ok b := by
  cases x with
  | ok a => exact ⟨a, rfl, h⟩
  | oob => simp at h

/-! ## Bits -/

theorem bit_pow (x i : Nat) : bit x (2 ^ i) = x.testBit i := by
  unfold bit
  rw [Bool.eq_iff_iff, bne_iff_ne]
  constructor
  · intro h
    apply Decidable.byContradiction
    intro hn
    apply h
    apply Nat.eq_of_testBit_eq
    intro j
    rw [Nat.testBit_and, Nat.testBit_two_pow, Nat.zero_testBit]
    by_cases hj : i = j
    · subst hj; simpa using hn
    · simp [hj]
  · intro h h0
    have : (x &&& 2 ^ i).testBit i = true := by rw [Nat.testBit_and, Nat.testBit_two_pow, h]; simp
    rw [h0] at this
    simp at this

theorem bit80 (x : Nat) : bit x 0x80 = decide (x / 128 % 2 = 1) := by
  rw [show 0x80 = 2 ^ 7 from rfl, bit_pow, Nat.testBit_eq_decide_div_mod_eq]

theorem bit40 (x : Nat) : bit x 0x40 = decide (x / 64 % 2 = 1) := by
  rw [show 0x40 = 2 ^ 6 from rfl, bit_pow, Nat.testBit_eq_decide_div_mod_eq]

theorem bit10 (x : Nat) : bit x 0x10 = decide (x / 16 % 2 = 1) := by
  rw [show 0x10 = 2 ^ 4 from rfl, bit_pow, Nat.testBit_eq_decide_div_mod_eq]

theorem bit08 (x : Nat) : bit x 0x08 = decide (x / 8 % 2 = 1) := by
  rw [show 0x08 = 2 ^ 3 from rfl, bit_pow, Nat.testBit_eq_decide_div_mod_eq]

theorem and_ff (x : Nat) : x &&& 0xff = x % 256 := Nat.and_two_pow_sub_one_eq_mod x 8
theorem and_f (x : Nat) : x &&& 0xf = x % 16 := Nat.and_two_pow_sub_one_eq_mod x 4

/-! ## Parity -/

theorem odd_spec (v : Nat) (h : v < 256) :
    ∃ p, odd v = .ok p ∧ (p = 0 ∨ p = 256) ∧ v ||| p = v + p ∧ ones 9 (v ||| p) % 2 = 1 := by
  have : ∀ v : Fin 256, (match odd v with
      | .ok p => decide ((p = 0 ∨ p = 256) ∧ v.val ||| p = v.val + p ∧ ones 9 (v.val ||| p) % 2 = 1)
      | .oob => false) = true := by decide +kernel
  have := this ⟨v, h⟩
  revert this
  cases odd v with
  | ok p => intro h; exact ⟨p, rfl, of_decide_eq_true h⟩
  | oob => intro h; simp at h

theorem odd_oob (v : Nat) (h : 256 ≤ v) : odd v = .oob := by
  unfold odd Xlat.oddParity
  have hl : oddParityTab.length = 256 := by decide +kernel
  rw [List.getElem?_eq_none (by omega)]

theorem odd_ok_lt {v p : Nat} (h : odd v = .ok p) : v < 256 := by
  apply Decidable.byContradiction
  intro hn
  rw [odd_oob v (by omega)] at h
  simp at h

theorem ones_mod (k v : Nat) : ones k (v % 2 ^ k) = ones k v := by
  induction k generalizing v with
  | zero => rfl
  | succ k ih =>
    show v % 2 ^ (k+1) % 2 + ones k (v % 2 ^ (k+1) / 2) = v % 2 + ones k (v / 2)
    have h1 : v % 2 ^ (k+1) % 2 = v % 2 := Nat.mod_mod_of_dvd v ⟨2 ^ k, by rw [Nat.pow_succ, Nat.mul_comm]⟩
    have h2 : v % 2 ^ (k+1) / 2 = v / 2 % 2 ^ k := by
      rw [Nat.pow_succ, Nat.mul_comm, Nat.mod_mul_right_div_self]
    rw [h1, h2, ih]

/-- Nine bits with odd parity. -/
def Good (v : Nat) : Prop := ones 9 v % 2 = 1

instance (v : Nat) : Decidable (Good v) := by unfold Good; infer_instance

theorem badParity_spec (v : Nat) : badParity v = .ok (decide (¬ Good v)) := by
  have key : ∀ v : Fin 512, badParity v = .ok (decide (¬ Good v)) := by decide +kernel
  have h := key ⟨v % 512, Nat.mod_lt _ (by decide)⟩
  have e1 : badParity (v % 512) = badParity v := by
    unfold badParity
    have : v % 512 &&& 0xff = v &&& 0xff := by rw [and_ff, and_ff]; omega
    rw [this]
    cases ho : odd (v &&& 0xff) with
    | oob => rfl
    | ok p =>
      show Res.ok _ = Res.ok _
      have : ∀ x y : Nat, bit (x ^^^ y) 0x100 = (bit x 0x100 ^^ bit y 0x100) := by
        intro x y
        rw [show 0x100 = 2 ^ 8 from rfl, bit_pow, bit_pow, bit_pow, Nat.testBit_xor]
      rw [this, this]
      have : bit (v % 512) 0x100 = bit v 0x100 := by
        rw [show 0x100 = 2 ^ 8 from rfl, bit_pow, bit_pow, show 512 = 2 ^ 9 from rfl, Nat.testBit_mod_two_pow]
        simp
      rw [this]
  have e2 : Good (v % 512) ↔ Good v := by unfold Good; rw [show 512 = 2 ^ 9 from rfl, ones_mod]
  rw [e1] at h
  rw [h]
  simp only [e2]

theorem badParity_ok (v : Nat) : ∃ b, badParity v = .ok b := ⟨_, badParity_spec v⟩

/-! ## Adder -/

/-- The carries of `combine` at bit `i` are the carries out of that bit position. -/
theorem carry_bit (a b cin i : Nat) (hi : i < 8) (ha : a < 256) (hb : b < 256) (hc : cin ≤ 1) :
    bit ((a &&& b) ||| ((a ^^^ b) &&& (0xffff ^^^ (a + b + cin)))) (2 ^ i) =
      decide (2 ^ (i+1) ≤ a % 2 ^ (i+1) + b % 2 ^ (i+1) + cin) := by
  rw [bit_pow, Nat.testBit_or, Nat.testBit_and, Nat.testBit_and, Nat.testBit_xor, Nat.testBit_xor]
  have h16 : (0xffff).testBit i = true := by
    rw [show 0xffff = 2 ^ 16 - 1 from rfl, Nat.testBit_two_pow_sub_one]; simp; omega
  rw [h16]
  simp only [Nat.testBit_eq_decide_div_mod_eq]
  have : i = 0 ∨ i = 1 ∨ i = 2 ∨ i = 3 ∨ i = 4 ∨ i = 5 ∨ i = 6 ∨ i = 7 := by omega
  rcases this with h | h | h | h | h | h | h | h <;> subst h <;> (
    simp only [Nat.reducePow, Nat.reduceAdd]
    rw [Bool.eq_iff_iff]
    simp only [Bool.or_eq_true, Bool.and_eq_true, bne_iff_ne, ne_eq, decide_eq_true_eq, Bool.true_bne, decide_eq_false_iff_not,
      decide_eq_decide, Bool.not_eq_eq_eq_not, Bool.not_true]
    omega)

theorem gateA_lt (cf a : Nat) : gateA cf a < 256 := by
  unfold gateA
  have h1 : ∀ x, x &&& 0xf < 256 := fun x => by rw [and_f]; omega
  have h2 : ∀ x, x &&& 0xf0 < 256 := fun x => Nat.lt_of_le_of_lt Nat.and_le_right (by decide)
  have h3 : ∀ x, x &&& 0xff < 256 := fun x => by rw [and_ff]; omega
  split
  any_goals first | exact h1 _ | exact h2 _ | exact h3 _ | decide
  exact Nat.or_lt_two_pow (n := 8) (h1 _) (h2 _)

theorem gateB_spec {cg cv s b x : Nat} (h : gateB cg cv s b = .ok x) : x < 256 := by
  unfold gateB at h
  split at h
  · simp at h
  · rename_i k hk
    have hkl : k ≤ 255 := by
      have : ∀ i : Fin 4, (cgMask[i]?).all (· ≤ 255) := by decide
      have hc : cg < 4 := by
        apply Decidable.byContradiction
        intro hn
        rw [List.getElem?_eq_none (by simp [cgMask]; omega)] at hk
        simp at hk
      have := this ⟨cg, hc⟩
      simp only [Fin.getElem?_fin] at this
      rw [hk] at this
      simpa using this
    have hb : b &&& k < 256 := Nat.lt_of_le_of_lt Nat.and_le_right (by omega)
    simp only at h
    split at h
    · have := Res.ok.inj h
      rw [← this]
      exact Nat.xor_lt_two_pow (n := 8) hb (by decide)
    · split at h
      · have := Res.ok.inj h
        rw [← this]
        exact Nat.or_lt_two_pow (n := 8) (Nat.lt_of_le_of_lt Nat.and_le_right (by decide)) (Nat.lt_of_le_of_lt Nat.and_le_right (by decide))
      · have := Res.ok.inj h
        omega

theorem xor_ff (b : Nat) (h : b < 256) : b ^^^ 0xff = 255 - b := by
  have : ∀ b : Fin 256, b.val ^^^ 0xff = 255 - b.val := by decide +kernel
  exact this ⟨b, h⟩

theorem carryIn_le (cc s : Nat) : carryIn cc s ≤ 1 := by
  unfold carryIn; split <;> (try split) <;> omega

/-! ## Decomposition of a cycle -/

structure Phases (e : Env) (w : Ros) (s s' : S) where
  s1 : S
  s2 : S
  b : Nat
  s3 : S
  a : Nat
  s4 : S
  o : Nat
  k : Nat
  s5 : S
  read : memRead w s = .ok s1
  ctl : memCtl w s1 = .ok s2
  bB : busB e w (ckFunc w (step e w s2)) = .ok (b, s3)
  bA : busA e w s3 = .ok (a, s4)
  hAlu : alu w s4.r.S s4.evenParity a b = .ok (o, k)
  hDest : dest w (complement w.CV (decLatch w s4).r.S) o k (decLatch w s4) = .ok s5
  fin : finish w o k (csFunc e w o (carrySave w k s5)) = .ok s'

theorem cycle_phases {e : Env} {w : Ros} {s s' : S} (h : cycle e w s = .ok s') : Nonempty (Phases e w s s') := by
  unfold cycle at h
  obtain ⟨s1, h1, h⟩ := bind_ok h
  obtain ⟨s2, h2, h⟩ := bind_ok h
  obtain ⟨⟨b, s3⟩, h3, h⟩ := bind_ok h
  obtain ⟨⟨a, s4⟩, h4, h⟩ := bind_ok h
  obtain ⟨⟨o, k⟩, h5, h⟩ := bind_ok h
  obtain ⟨s5, h6, h⟩ := bind_ok h
  exact ⟨⟨s1, s2, b, s3, a, s4, o, k, s5, h1, h2, h3, h4, h5, h6, h⟩⟩

theorem phases_cycle {e : Env} {w : Ros} {s s' : S} (p : Phases e w s s') : cycle e w s = .ok s' := by
  unfold cycle
  rw [p.read, ok_bind, p.ctl, ok_bind]
  simp only
  rw [p.bB, ok_bind]
  simp only
  rw [p.bA, ok_bind]
  simp only
  rw [p.hAlu, ok_bind]
  simp only
  rw [p.hDest, ok_bind, p.fin]

end Verif.Cpu30
