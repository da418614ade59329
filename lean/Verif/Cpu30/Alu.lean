import Verif.Cpu30.Basic
import Verif.Cpu30.Spec
/-! The adder. -/
namespace Verif.Cpu30

theorem and_f0 (x : Nat) : x &&& 0xf0 = x / 16 % 16 * 16 := by
  have h : ∀ y : Fin 256, y.val &&& 0xf0 = y.val / 16 % 16 * 16 := by decide +kernel
  have e : x &&& 0xf0 = (x % 256) &&& 0xf0 := by
    rw [← and_ff, Nat.and_assoc]; rfl
  have h2 : (x % 256) &&& 0xf0 = x % 256 / 16 % 16 * 16 := h ⟨x % 256, Nat.mod_lt _ (by decide)⟩
  rw [e, h2]; omega

theorem gateA_eq (cf a : Nat) : gateA cf a = Spec.inA cf a := by
  unfold gateA Spec.inA
  split
  · exact and_f a
  · exact and_f0 a
  · exact and_ff a
  · show _ = a / 16 % 16
    rw [and_f, Nat.shiftRight_eq_div_pow]
  · show _ = a % 16 * 16
    rw [and_f0, Nat.shiftLeft_eq]; omega
  · show _ = a % 16 * 16 + a / 16 % 16
    rw [and_f, and_f0, Nat.shiftRight_eq_div_pow, Nat.shiftLeft_eq]
    have e : a * 2 ^ 4 / 16 % 16 * 16 = 2 ^ 4 * (a % 16) := by omega
    rw [e, Nat.or_comm, ← Nat.two_pow_add_eq_or_of_lt (by omega)]
    omega
  · rename_i h1 h2 h3 h5 h6 h7
    split <;> first | contradiction | rfl

theorem bit2 (x : Nat) : bit x 2 = decide (x / 2 % 2 = 1) := by
  rw [show 2 = 2 ^ 1 from rfl, bit_pow, Nat.testBit_eq_decide_div_mod_eq]

theorem complement_eq (cv s : Nat) (h : cv < 4) : complement cv s = decide (Spec.sub cv s) := by
  unfold complement Spec.sub
  rw [bit2, bit80]
  have : cv = 0 ∨ cv = 1 ∨ cv = 2 ∨ cv = 3 := by omega
  rcases this with rfl | rfl | rfl | rfl <;> simp

theorem inB_lt (cg b : Nat) : Spec.inB cg b < 256 := by unfold Spec.inB; split <;> omega
theorem inA_lt (cf a : Nat) : Spec.inA cf a < 256 := by unfold Spec.inA; split <;> omega

theorem gateB_mask (cg b : Nat) (h : cg < 4) : ∃ k, cgMask[cg]? = some k ∧ b &&& k = Spec.inB cg b := by
  have : cg = 0 ∨ cg = 1 ∨ cg = 2 ∨ cg = 3 := by omega
  rcases this with rfl | rfl | rfl | rfl
  · exact ⟨0, rfl, Nat.and_zero b⟩
  · exact ⟨0xf, rfl, and_f b⟩
  · exact ⟨0xf0, rfl, and_f0 b⟩
  · exact ⟨0xff, rfl, and_ff b⟩

/-- The byte added: complemented to 255, biased by six in each digit, or unchanged. -/
def biased (cg cv s b : Nat) : Nat :=
  if Spec.sub cv s then 255 - Spec.inB cg b
  else if cv = 3 then (Spec.inB cg b / 16 + 6) % 16 * 16 + (Spec.inB cg b + 6) % 16
  else Spec.inB cg b

theorem gateB_eq (cg cv s b : Nat) (h : cg < 4) (hv : cv < 4) : gateB cg cv s b = .ok (biased cg cv s b) := by
  obtain ⟨k, hk, hb⟩ := gateB_mask cg b h
  unfold gateB biased
  rw [hk]
  simp only [complement_eq cv s hv, hb, decide_eq_true_eq]
  have hl := inB_lt cg b
  split
  · rw [xor_ff _ hl]
  · split
    · have e : ((Spec.inB cg b + 0x60) &&& 0xf0) ||| ((Spec.inB cg b + 0x6) &&& 0x0f) =
        (Spec.inB cg b / 16 + 6) % 16 * 16 + (Spec.inB cg b + 6) % 16 := by
        rw [and_f, and_f0]
        have e1 : (Spec.inB cg b + 0x60) / 16 % 16 * 16 = 2 ^ 4 * ((Spec.inB cg b / 16 + 6) % 16) := by omega
        rw [e1, ← Nat.two_pow_add_eq_or_of_lt (by omega)]
        omega
      rw [e]
    · rfl

theorem biased_lt (cg cv s b : Nat) : biased cg cv s b < 256 := by
  unfold biased
  have := inB_lt cg b
  split
  · omega
  · split <;> omega

theorem carryIn_eq (cc s : Nat) : carryIn cc s = Spec.cin cc s := by
  unfold carryIn Spec.cin
  rw [bit10]
  split
  · rfl
  · rfl
  · simp only [decide_eq_true_eq]
    show _ = s / 16 % 2
    split <;> omega
  · rename_i h1 h5 h6
    rw [if_neg (by intro h; rcases h with h | h; exact h1 h; exact h5 h), if_neg h6]

theorem cin_le (cc s : Nat) : Spec.cin cc s ≤ 1 := by rw [← carryIn_eq]; exact carryIn_le cc s

/-- The carries the adder reports. -/
def carries (a b c : Nat) : Nat := (a &&& b) ||| ((a ^^^ b) &&& (0xffff ^^^ (a + b + c)))

theorem combine_add {cc : Nat} (h : Spec.adds cc) (a b c : Nat) : combine cc a b c = ((a + b + c) % 256, carries a b c) := by
  rcases h with rfl | rfl | rfl | rfl | rfl <;> (unfold combine carries; simp only [and_ff])

theorem carries80 (a b c : Nat) (ha : a < 256) (hb : b < 256) (hc : c ≤ 1) : bit (carries a b c) 0x80 = decide (256 ≤ a + b + c) := by
  have := carry_bit a b c 7 (by omega) ha hb hc
  simp only [Nat.reducePow, Nat.reduceAdd, Nat.mod_eq_of_lt ha, Nat.mod_eq_of_lt hb] at this
  exact this

theorem carries40 (a b c : Nat) (ha : a < 256) (hb : b < 256) (hc : c ≤ 1) :
    bit (carries a b c) 0x40 = decide (128 ≤ a % 128 + b % 128 + c) := by
  have := carry_bit a b c 6 (by omega) ha hb hc
  simp only [Nat.reducePow, Nat.reduceAdd] at this
  exact this

theorem carries08 (a b c : Nat) (ha : a < 256) (hb : b < 256) (hc : c ≤ 1) :
    bit (carries a b c) 0x08 = decide (16 ≤ a % 16 + b % 16 + c) := by
  have := carry_bit a b c 3 (by omega) ha hb hc
  simp only [Nat.reducePow, Nat.reduceAdd] at this
  exact this

/-- Parity generation. -/
theorem withParity_spec (v : Nat) (even : Bool) (h : v < 256) :
    ∃ p, odd v = .ok p ∧ (v ||| (p ^^^ (if even then 0x100 else 0))) < 512 ∧ (v ||| (p ^^^ (if even then 0x100 else 0))) % 256 = v ∧
      (Good (v ||| (p ^^^ (if even then 0x100 else 0))) ↔ even = false) := by
  have key : ∀ even : Bool, ∀ v : Fin 256, (match odd v with
      | .ok p => decide ((v.val ||| (p ^^^ (if even then 0x100 else 0))) < 512 ∧ (v.val ||| (p ^^^ (if even then 0x100 else 0))) % 256 = v.val ∧
      (Good (v.val ||| (p ^^^ (if even then 0x100 else 0))) ↔ even = false))
      | .oob => false) = true := by decide +kernel
  have := key even ⟨v, h⟩
  revert this
  cases odd v with
  | ok p => intro h; exact ⟨p, rfl, of_decide_eq_true h⟩
  | oob => intro h; simp at h

theorem alu_unfold (w : Ros) (sreg : Nat) (even : Bool) (a b : Nat) (hg : w.CG < 4) (hv : w.CV < 4) :
    alu w sreg even a b =
      (let r := combine w.CC (Spec.inA w.CF a) (biased w.CG w.CV sreg b) (Spec.cin w.CC sreg)
       let v := if w.CV = 3 then decFix r.1 r.2 else r.1
       do let p ← odd v
          .ok (v ||| (p ^^^ (if even then 0x100 else 0)), r.2)) := by
  unfold alu
  rw [gateB_eq _ _ _ _ hg hv, ok_bind, gateA_eq, carryIn_eq]

/-- When the value before parity is a byte. -/
theorem alu_of_lt {w : Ros} {sreg : Nat} {even : Bool} {a b v k : Nat} (hg : w.CG < 4) (hv : w.CV < 4)
    (hr : combine w.CC (Spec.inA w.CF a) (biased w.CG w.CV sreg b) (Spec.cin w.CC sreg) = (x, k))
    (hx : (if w.CV = 3 then decFix x k else x) = v) (hl : v < 256) :
    ∃ o, alu w sreg even a b = .ok (o, k) ∧ o < 512 ∧ o % 256 = v ∧ (Good o ↔ even = false) := by
  rw [alu_unfold w sreg even a b hg hv, hr]
  simp only [hx]
  obtain ⟨p, hp, h1, h2, h3⟩ := withParity_spec v even hl
  exact ⟨_, by rw [hp]; rfl, h1, h2, h3⟩

/-- Binary addition and subtraction of one byte. -/
theorem alu_binary (w : Ros) (sreg : Nat) (even : Bool) (a b : Nat) (hg : w.CG < 4) (hv : w.CV < 3) (hc : Spec.adds w.CC) :
    ∃ o k, alu w sreg even a b = .ok (o, k) ∧ o < 512 ∧ (Good o ↔ even = false) ∧
      o % 256 + (if bit k 0x80 then 256 else 0) =
        Spec.inA w.CF a + (if Spec.sub w.CV sreg then 255 - Spec.inB w.CG b else Spec.inB w.CG b) + Spec.cin w.CC sreg ∧
      bit k 0x40 = decide (128 ≤ Spec.inA w.CF a % 128 +
        (if Spec.sub w.CV sreg then 255 - Spec.inB w.CG b else Spec.inB w.CG b) % 128 + Spec.cin w.CC sreg) := by
  have hbi : biased w.CG w.CV sreg b = if Spec.sub w.CV sreg then 255 - Spec.inB w.CG b else Spec.inB w.CG b := by
    unfold biased
    rw [if_neg (show w.CV ≠ 3 by omega)]
  have ha := inA_lt w.CF a
  have hb := biased_lt w.CG w.CV sreg b
  have hci := cin_le w.CC sreg
  obtain ⟨o, h1, h2, h3, h4⟩ := alu_of_lt (even := even) hg (by omega) (combine_add hc _ _ _)
    (if_neg (show w.CV ≠ 3 by omega)) (Nat.mod_lt _ (by decide))
  refine ⟨o, _, h1, h2, h4, ?_, ?_⟩
  · rw [h3, carries80 _ _ _ ha hb hci, ← hbi]
    simp only [decide_eq_true_eq]
    split <;> omega
  · rw [carries40 _ _ _ ha hb hci, ← hbi]

theorem combine_logic {cc a b c : Nat} (h : cc = 2 ∨ cc = 3 ∨ cc = 7) (ha : a < 256) (hb : b < 256) :
    ∃ x, combine cc a b c = (x, 0) ∧ x < 256 ∧ ∀ i, x.testBit i =
      (if cc = 2 then a.testBit i && b.testBit i else if cc = 3 then a.testBit i || b.testBit i else a.testBit i ^^ b.testBit i) := by
  rcases h with rfl | rfl | rfl
  · exact ⟨a &&& b, rfl, Nat.lt_of_le_of_lt Nat.and_le_left ha, fun i => Nat.testBit_and a b i⟩
  · exact ⟨a ||| b, rfl, Nat.or_lt_two_pow (n := 8) ha hb, fun i => Nat.testBit_or a b i⟩
  · exact ⟨a ^^^ b, rfl, Nat.xor_lt_two_pow (n := 8) ha hb, fun i => Nat.testBit_xor a b i⟩

theorem alu_logic (w : Ros) (sreg : Nat) (even : Bool) (a b : Nat) (hg : w.CG < 4) (hv : w.CV < 3) (hc : w.CC = 2 ∨ w.CC = 3 ∨ w.CC = 7) :
    ∃ o, alu w sreg even a b = .ok (o, 0) ∧ o < 512 ∧ (Good o ↔ even = false) ∧ ∀ i, i < 8 → o.testBit i =
      (let x := (Spec.inA w.CF a).testBit i
       let y := (if Spec.sub w.CV sreg then 255 - Spec.inB w.CG b else Spec.inB w.CG b).testBit i
       if w.CC = 2 then x && y else if w.CC = 3 then x || y else x ^^ y) := by
  have hbi : biased w.CG w.CV sreg b = if Spec.sub w.CV sreg then 255 - Spec.inB w.CG b else Spec.inB w.CG b := by
    unfold biased
    rw [if_neg (show w.CV ≠ 3 by omega)]
  obtain ⟨x, hx, hl, ht⟩ := combine_logic (c := Spec.cin w.CC sreg) hc (inA_lt w.CF a) (biased_lt w.CG w.CV sreg b)
  obtain ⟨o, h1, h2, h3, h4⟩ := alu_of_lt (even := even) hg (by omega) hx (if_neg (show w.CV ≠ 3 by omega)) hl
  refine ⟨o, h1, h2, h4, fun i hi => ?_⟩
  have : o.testBit i = x.testBit i := by
    rw [← h3, show 256 = 2 ^ 8 from rfl, Nat.testBit_mod_two_pow]
    simp [hi]
  rw [this, ht i, hbi]

/-! ## Decimal -/

theorem decFix_eq (x k : Nat) (hx : x < 256) : decFix x k =
    (x + 2 * 65536 - (if bit k 0x08 then 0 else 6) - (if bit k 0x80 then 0 else 96)) % 65536 := by
  unfold decFix
  simp only
  split <;> split <;> omega

theorem alu_decimal (w : Ros) (sreg : Nat) (even : Bool) (a b : Nat) (hg : w.CG < 4) (hv : w.CV = 3) (hc : Spec.adds w.CC)
    (hA : Spec.bcd (Spec.inA w.CF a)) (hB : Spec.bcd (Spec.inB w.CG b)) :
    ∃ o k, alu w sreg even a b = .ok (o, k) ∧ o < 512 ∧ (Good o ↔ even = false) ∧ Spec.bcd (o % 256) ∧
      Spec.dec (o % 256) + (if bit k 0x80 then 100 else 0) =
        Spec.dec (Spec.inA w.CF a) + (if Spec.sub w.CV sreg then 99 - Spec.dec (Spec.inB w.CG b) else Spec.dec (Spec.inB w.CG b)) +
          Spec.cin w.CC sreg := by
  have ha := inA_lt w.CF a
  have hb := biased_lt w.CG w.CV sreg b
  have hci := cin_le w.CC sreg
  have k1 := carries80 _ _ _ ha hb hci
  have k2 := carries08 _ _ _ ha hb hci
  have hs := combine_add hc (Spec.inA w.CF a) (biased w.CG w.CV sreg b) (Spec.cin w.CC sreg)
  have hbi : biased w.CG w.CV sreg b = if Spec.sub w.CV sreg then 255 - Spec.inB w.CG b else
      (Spec.inB w.CG b / 16 + 6) % 16 * 16 + (Spec.inB w.CG b + 6) % 16 := by
    unfold biased
    rw [if_pos hv]
  revert ha hb hci k1 k2 hs hbi hA hB
  generalize hAA : Spec.inA w.CF a = A
  generalize hBB : Spec.inB w.CG b = B
  generalize hXX : biased w.CG w.CV sreg b = X
  generalize hCC : Spec.cin w.CC sreg = c
  intro hA hB ha hb hci k1 k2 hs hbi
  obtain ⟨hA1, hA2, hA3⟩ := hA
  obtain ⟨hB1, hB2, hB3⟩ := hB
  have hd := decFix_eq ((A + X + c) % 256) (carries A X c) (Nat.mod_lt _ (by decide))
  rw [k1, k2] at hd
  simp only [decide_eq_true_eq] at hd
  have main : ∃ v, decFix ((A + X + c) % 256) (carries A X c) = v ∧ v < 256 ∧ Spec.bcd v ∧
      Spec.dec v + (if 256 ≤ A + X + c then 100 else 0) = Spec.dec A + (if Spec.sub w.CV sreg then 99 - Spec.dec B else Spec.dec B) + c := by
    refine ⟨_, hd, ?_⟩
    unfold Spec.bcd Spec.dec
    by_cases hsub : Spec.sub w.CV sreg
    · simp only [if_pos hsub] at hbi ⊢
      subst hbi
      by_cases h1 : 256 ≤ A + (255 - B) + c <;> by_cases h2 : 16 ≤ A % 16 + (255 - B) % 16 + c <;>
        simp only [h1, h2, if_true, if_false] <;> omega
    · simp only [if_neg hsub] at hbi ⊢
      have hbi2 : X = B + 102 := by omega
      subst hbi2
      by_cases h1 : 256 ≤ A + (B + 102) + c <;> by_cases h2 : 16 ≤ A % 16 + (B + 102) % 16 + c <;>
        simp only [h1, h2, if_true, if_false] <;> omega
  obtain ⟨v, hv1, hv2, hv3, hv4⟩ := main
  have hs' : combine w.CC (Spec.inA w.CF a) (biased w.CG w.CV sreg b) (Spec.cin w.CC sreg) = ((A + X + c) % 256, carries A X c) := by
    rw [hAA, hXX, hCC]; exact hs
  obtain ⟨o, h1, h2, h3, h4⟩ := alu_of_lt (even := even) hg (by omega) hs' (by rw [if_pos hv]; exact hv1) hv2
  refine ⟨o, _, h1, h2, h4, by rw [h3]; exact hv3, ?_⟩
  rw [h3, k1]
  simp only [decide_eq_true_eq]
  exact hv4

end Verif.Cpu30
