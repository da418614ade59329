import Verif.Cpu30.Tail
/-!
# Arithmetic and parity of the model 2030

C53 binary arithmetic, C54 decimal arithmetic, C55 parity of results, C71 only the named register changes,
C72 parity errors on the B bus are reported.
-/
namespace Verif.Cpu30

/-! ## Registers by their codes -/

/-- The register a CA code from 7 to 15 puts on the A bus. -/
def Spec.regA (ca : Nat) (r : Regs) : Nat :=
  match ca with
  | 7 => r.R | 8 => r.D | 9 => r.L | 10 => r.G | 11 => r.T | 12 => r.V | 13 => r.U | 14 => r.J | _ => r.I

/-- The register a CB code below 3 puts on the B bus. -/
def Spec.regB (cb : Nat) (r : Regs) : Nat :=
  match cb with
  | 0 => r.R | 1 => r.L | _ => r.D

/-- The register a CD code from 8 to 15 loads. -/
def Spec.regD (cd : Nat) (r : Regs) : Nat :=
  match cd with
  | 8 => r.D | 9 => r.L | 10 => r.G | 11 => r.T | 12 => r.V | 13 => r.U | 14 => r.J | _ => r.I

/-- Microinstructions that work on registers only: no storage operation, no special function, results to D, L, G, T, V,
U, J or I. -/
structure Spec.registerOp (w : Ros) : Prop where
  ok : w.Ok
  cm : w.CM = 1
  ck : w.CK < 16
  cb : w.CB < 3
  ca : 7 ≤ w.CA ∧ w.CA ≤ 15
  cd : 8 ≤ w.CD ∧ w.CD ≤ 15
  cs : w.CS = 0

theorem busB_reg (e : Env) (w : Ros) (s : S) (hk : w.CK < 16) (hb : w.CB < 3) : ∃ s', busB e w s = .ok (Spec.regB w.CB s.r, s') := by
  unfold busB
  rw [if_neg (by omega)]
  have : w.CB = 0 ∨ w.CB = 1 ∨ w.CB = 2 := by omega
  rcases this with h | h | h <;> rw [h] <;> simp only [ok_bind, badParity_spec] <;> split <;> exact ⟨_, rfl⟩

theorem busA_reg (e : Env) (w : Ros) (s : S) (ha : 7 ≤ w.CA ∧ w.CA ≤ 15) : ∃ s', busA e w s = .ok (Spec.regA w.CA s.r, s') := by
  have : srcA e w s = .ok (Spec.regA w.CA s.r, true, s) := by
    have : w.CA = 7 ∨ w.CA = 8 ∨ w.CA = 9 ∨ w.CA = 10 ∨ w.CA = 11 ∨ w.CA = 12 ∨ w.CA = 13 ∨ w.CA = 14 ∨ w.CA = 15 := by omega
    unfold srcA
    rcases this with h | h | h | h | h | h | h | h | h <;> rw [h] <;> rfl
  unfold busA
  rw [this]
  simp only [ok_bind, badParity_spec]
  split <;> exact ⟨_, rfl⟩

theorem dest_total (w : Ros) (tc : Bool) (o k : Nat) (s : S) : ∃ s', dest w tc o k s = .ok s' := by
  unfold dest
  split
  any_goals exact ⟨_, rfl⟩
  split
  · exact ⟨_, rfl⟩
  · rw [badParity_spec]; exact ⟨_, rfl⟩

theorem finish_total (w : Ros) (o k : Nat) (s : S) : ∃ s', finish w o k s = .ok s' := by
  unfold finish
  split
  · rw [badParity_spec]; exact ⟨_, rfl⟩
  · exact ⟨_, rfl⟩

/-- A register operation reads its operands from the registers named. -/
theorem registerOp_phases {e : Env} {w : Ros} {s : S} (h : Spec.registerOp w) (hr : s.a.readCall = false)
    (ho : ∀ even, ∃ o k, alu w s.r.S even (Spec.regA w.CA s.r) (Spec.regB w.CB s.r) = .ok (o, k)) :
    ∃ s', ∃ p : Phases e w s s', p.a = Spec.regA w.CA s.r ∧ p.b = Spec.regB w.CB s.r ∧ p.s2 = s := by
  have h1 : memRead w s = .ok s := by unfold memRead; rw [hr]; rfl
  have h2 : memCtl w s = .ok s := by
    unfold memCtl setMN request
    rw [if_neg (by rw [h.cm]; omega), h.cm]
    rfl
  obtain ⟨s3, h3⟩ := busB_reg e w (ckFunc w (step e w s)) h.ck h.cb
  obtain ⟨s4, h4⟩ := busA_reg e w s3 h.ca
  obtain ⟨m3, e3⟩ := busB_K h3
  obtain ⟨m4, c4, gr, ge, e4⟩ := busA_K h4
  obtain ⟨f1, f2, f3, -⟩ := ckFunc_K w (step e w s)
  have hregs : ∀ t : S, K t = K s → t.r.R = s.r.R → Spec.regA w.CA t.r = Spec.regA w.CA s.r ∧ Spec.regB w.CB t.r = Spec.regB w.CB s.r := by
    intro t hK hR
    unfold K at hK
    simp only [List.cons.injEq, and_true] at hK
    obtain ⟨d1, d2, d3, d4, d5, d6, d7, d8, d9⟩ := hK
    unfold Spec.regA Spec.regB
    rw [d1, d2, d3, d4, d5, d6, d7, d8, hR]
    exact ⟨rfl, rfl⟩
  have hB : Spec.regB w.CB (ckFunc w (step e w s)).r = Spec.regB w.CB s.r := (hregs _ f1 f2).2
  have hA : Spec.regA w.CA s3.r = Spec.regA w.CA s.r := by
    apply (hregs s3 _ _).1
    · rw [e3]; exact f1
    · rw [e3]; exact f2
  have hS : s4.r.S = s.r.S := by
    rw [e4]
    simp only
    rw [e3]
    exact f3
  rw [hB] at h3
  rw [hA] at h4
  obtain ⟨o, k, h5⟩ := ho s4.evenParity
  rw [← hS] at h5
  obtain ⟨s5, h6⟩ := dest_total w (complement w.CV (decLatch w s4).r.S) o k (decLatch w s4)
  obtain ⟨s', h7⟩ := finish_total w o k (csFunc e w o (carrySave w k s5))
  exact ⟨s', ⟨s, s, _, s3, _, s4, o, k, s5, h1, h2, h3, h4, h5, h6, h7⟩, rfl, rfl, rfl⟩

theorem bit4 (x : Nat) : bit x 4 = decide (x / 4 % 2 = 1) := by
  rw [show 4 = 2 ^ 2 from rfl, bit_pow, Nat.testBit_eq_decide_div_mod_eq]

/-- Setting or clearing the carry latch changes that bit only. -/
theorem saveCarry_spec (cc k s : Nat) (hs : s < 256) (hcc : cc < 8) :
    (saveCarry cc k s < 256) ∧
    (cc = 4 ∨ cc = 5 ∨ cc = 6 → saveCarry cc k s / 16 % 2 = (if bit k 0x80 then 1 else 0) ∧
      saveCarry cc k s / 32 = s / 32 ∧ saveCarry cc k s % 16 = s % 16) ∧
    (¬ (cc = 4 ∨ cc = 5 ∨ cc = 6) → saveCarry cc k s = s) := by
  have hc : (bit cc 4 = true ∧ cc ≠ 7) ↔ (cc = 4 ∨ cc = 5 ∨ cc = 6) := by
    rw [bit4, decide_eq_true_eq]; omega
  have key : ∀ s : Fin 256, (s.val ||| 0x10) < 256 ∧ (s.val ||| 0x10) / 16 % 2 = 1 ∧ (s.val ||| 0x10) / 32 = s.val / 32 ∧ (s.val ||| 0x10) % 16 = s.val % 16 ∧
      clr s.val 0x10 < 256 ∧ clr s.val 0x10 / 16 % 2 = 0 ∧ clr s.val 0x10 / 32 = s.val / 32 ∧ clr s.val 0x10 % 16 = s.val % 16 := by decide +kernel
  obtain ⟨a1, a2, a3, a4, a5, a6, a7, a8⟩ := key ⟨s, hs⟩
  unfold saveCarry
  refine ⟨?_, ?_, ?_⟩
  · split
    · split
      · exact a1
      · exact a5
    · exact hs
  · intro h
    rw [if_pos (hc.mpr h)]
    split
    · exact ⟨a2, a3, a4⟩
    · exact ⟨a6, a7, a8⟩
  · intro h
    rw [if_neg (fun h' => h (hc.mp h'))]

/-- The value of the destination register and of the carry after a register operation. -/
theorem registerOp_result {e : Env} {w : Ros} {s s' : S} (h : Spec.registerOp w) (p : Phases e w s s') (hs : s.r.S < 256) :
    Spec.regD w.CD s'.r = p.o ∧ (∀ i, 8 ≤ i → i ≤ 15 → i ≠ w.CD → Spec.regD i s'.r = Spec.regD i s.r) ∧ s'.r.H = s.r.H ∧
      (s'.q.stat / 4 % 2 = if bit p.k 0x80 then 1 else 0) ∧ s'.r.S = saveCarry w.CC p.k s.r.S := by
  have hK := cycle_K p
  unfold K at hK
  simp only [List.cons.injEq, and_true] at hK
  obtain ⟨d1, d2, d3, d4, d5, d6, d7, d8, d9⟩ := hK
  have hcd := h.cd
  refine ⟨?_, ?_, ?_, ?_, ?_⟩
  · have : w.CD = 8 ∨ w.CD = 9 ∨ w.CD = 10 ∨ w.CD = 11 ∨ w.CD = 12 ∨ w.CD = 13 ∨ w.CD = 14 ∨ w.CD = 15 := by omega
    unfold Spec.regD
    rcases this with hc | hc | hc | hc | hc | hc | hc | hc
    · rw [hc]; exact d1.trans (if_pos hc)
    · rw [hc]; exact d2.trans (if_pos hc)
    · rw [hc]; exact d3.trans (if_pos hc)
    · rw [hc]; exact d4.trans (if_pos hc)
    · rw [hc]; exact d5.trans (if_pos hc)
    · rw [hc]; exact d6.trans (if_pos hc)
    · rw [hc]; exact d7.trans (if_pos hc)
    · rw [hc]; exact d8.trans (if_pos hc)
  · intro i h1 h2 h3
    have : i = 8 ∨ i = 9 ∨ i = 10 ∨ i = 11 ∨ i = 12 ∨ i = 13 ∨ i = 14 ∨ i = 15 := by omega
    unfold Spec.regD
    rcases this with rfl | rfl | rfl | rfl | rfl | rfl | rfl | rfl
    · exact d1.trans (if_neg (Ne.symm h3))
    · exact d2.trans (if_neg (Ne.symm h3))
    · exact d3.trans (if_neg (Ne.symm h3))
    · exact d4.trans (if_neg (Ne.symm h3))
    · exact d5.trans (if_neg (Ne.symm h3))
    · exact d6.trans (if_neg (Ne.symm h3))
    · exact d7.trans (if_neg (Ne.symm h3))
    · exact d8.trans (if_neg (Ne.symm h3))
  · rw [d9, if_neg (by omega)]
  · have hf := p.fin
    unfold finish at hf
    obtain ⟨b, -, hf⟩ := bind_ok hf
    have := Res.ok.inj hf
    rw [← congrArg (fun t => t.q.stat / 4 % 2) this]
    simp only
    cases bit p.k 0x80 <;> cases bit p.k 0x40 <;> by_cases h0 : p.o &&& 0xff = 0 <;> simp [h0]
  · have h4 := cycle_S p
    obtain ⟨x, y, e5⟩ := decLatch_K w p.s4
    have d3 := (dest_R p.hDest).2.2.1
    rw [if_neg (by omega), e5] at d3
    have hc : (carrySave w p.k p.s5).r.S = saveCarry w.CC p.k p.s5.r.S := by
      unfold carrySave
      simp only
      (repeat' split) <;> rfl
    have hcs : csFunc e w p.o (carrySave w p.k p.s5) = carrySave w p.k p.s5 := by
      simp only [csFunc, h.cs]
    obtain ⟨m9, t9, e9⟩ := finish_K p.fin
    have : s'.r.S = (csFunc e w p.o (carrySave w p.k p.s5)).r.S := congrArg (·.r.S) e9
    rw [this, hcs, hc, d3]
    simp only
    rw [h4]

/-- **C53**, adding: a microinstruction that adds puts the low byte of the sum of its operands and the carry into the
destination and the carry out into the status (and, when it asks for that, in the carry latch), changing no other register
of D, L, G, T, V, U, J, I, H.  Subtracting adds 255 minus the operand. -/
theorem C53_binary_sum (e : Env) (w : Ros) (s : S) (h : Spec.registerOp w) (hr : s.a.readCall = false) (hs : s.r.S < 256)
    (hv : w.CV < 3) (hc : Spec.adds w.CC) :
    ∃ s' carry, cycle e w s = .ok s' ∧ carry ≤ 1 ∧
      Spec.regD w.CD s'.r % 256 + 256 * carry = Spec.inA w.CF (Spec.regA w.CA s.r) +
        (if Spec.sub w.CV s.r.S then 255 - Spec.inB w.CG (Spec.regB w.CB s.r) else Spec.inB w.CG (Spec.regB w.CB s.r)) + Spec.cin w.CC s.r.S ∧
      s'.q.stat / 4 % 2 = carry ∧
      (if w.CC = 4 ∨ w.CC = 5 ∨ w.CC = 6 then s'.r.S / 16 % 2 = carry ∧ s'.r.S / 32 = s.r.S / 32 ∧ s'.r.S % 16 = s.r.S % 16
        else s'.r.S = s.r.S) ∧
      (∀ i, 8 ≤ i → i ≤ 15 → i ≠ w.CD → Spec.regD i s'.r = Spec.regD i s.r) ∧ s'.r.H = s.r.H ∧ s'.r.R = s.r.R ∧ s'.m = s.m := by
  obtain ⟨s', p, pa, pb, p2⟩ := registerOp_phases (e := e) h hr (fun even => by
    obtain ⟨o, k, h1, -⟩ := alu_binary w s.r.S even (Spec.regA w.CA s.r) (Spec.regB w.CB s.r) h.ok.CG hv hc
    exact ⟨o, k, h1⟩)
  obtain ⟨r1, r2, r3, r4, r5⟩ := registerOp_result h p hs
  obtain ⟨o, k, h1, h2, h3, h4, h5⟩ := alu_binary w s.r.S p.s4.evenParity (Spec.regA w.CA s.r) (Spec.regB w.CB s.r) h.ok.CG hv hc
  have hal := p.hAlu
  rw [cycle_S p, pa, pb, h1] at hal
  obtain ⟨ho, hk⟩ := Prod.mk.inj (Res.ok.inj hal)
  obtain ⟨t1, t2, t3, -⟩ := tail_frame p
  rw [← ho] at r1
  rw [← hk] at r4 r5
  obtain ⟨-, c1, c2⟩ := saveCarry_spec w.CC k s.r.S hs h.ok.CC
  refine ⟨s', if bit k 0x80 then 1 else 0, phases_cycle p, by split <;> omega, ?_, r4, ?_, r2, r3, ?_, ?_⟩
  · rw [r1, ← h4]
    split <;> omega
  · split
    · rename_i hcc
      rw [r5]
      exact c1 hcc
    · rename_i hcc
      rw [r5]
      exact c2 hcc
  · rw [t3, if_neg (by have := h.cd; omega), p2]
  · rw [t1, p2]

/-- **C53**, logical functions: AND, OR and exclusive OR bit by bit. -/
theorem C53_logical (e : Env) (w : Ros) (s : S) (h : Spec.registerOp w) (hr : s.a.readCall = false) (hs : s.r.S < 256)
    (hv : w.CV < 3) (hc : w.CC = 2 ∨ w.CC = 3 ∨ w.CC = 7) :
    ∃ s', cycle e w s = .ok s' ∧
      (∀ i, i < 8 → (Spec.regD w.CD s'.r).testBit i =
        (let x := (Spec.inA w.CF (Spec.regA w.CA s.r)).testBit i
         let y := (if Spec.sub w.CV s.r.S then 255 - Spec.inB w.CG (Spec.regB w.CB s.r) else Spec.inB w.CG (Spec.regB w.CB s.r)).testBit i
         if w.CC = 2 then x && y else if w.CC = 3 then x || y else x ^^ y)) ∧
      s'.r.S = s.r.S ∧ (∀ i, 8 ≤ i → i ≤ 15 → i ≠ w.CD → Spec.regD i s'.r = Spec.regD i s.r) ∧ s'.r.R = s.r.R ∧ s'.m = s.m := by
  obtain ⟨s', p, pa, pb, p2⟩ := registerOp_phases (e := e) h hr (fun even => by
    obtain ⟨o, h1, -⟩ := alu_logic w s.r.S even (Spec.regA w.CA s.r) (Spec.regB w.CB s.r) h.ok.CG hv hc
    exact ⟨o, 0, h1⟩)
  obtain ⟨r1, r2, r3, r4, r5⟩ := registerOp_result h p hs
  obtain ⟨o, h1, h2, h3, h4⟩ := alu_logic w s.r.S p.s4.evenParity (Spec.regA w.CA s.r) (Spec.regB w.CB s.r) h.ok.CG hv hc
  have hal := p.hAlu
  rw [cycle_S p, pa, pb, h1] at hal
  obtain ⟨ho, hk⟩ := Prod.mk.inj (Res.ok.inj hal)
  obtain ⟨t1, t2, t3, -⟩ := tail_frame p
  rw [← ho] at r1
  obtain ⟨-, -, c2⟩ := saveCarry_spec w.CC p.k s.r.S hs h.ok.CC
  refine ⟨s', phases_cycle p, fun i hi => by rw [r1]; exact h4 i hi, ?_, r2, ?_, ?_⟩
  · rw [r5]
    exact c2 (by omega)
  · rw [t3, if_neg (by have := h.cd; omega), p2]
  · rw [t1, p2]

/-- **C54**, one byte: for valid digits the result is two valid digits whose value, with the carry, is the decimal sum;
subtracting adds 99 minus the operand. -/
theorem C54_decimal_sum (e : Env) (w : Ros) (s : S) (h : Spec.registerOp w) (hr : s.a.readCall = false) (hs : s.r.S < 256)
    (hv : w.CV = 3) (hc : Spec.adds w.CC) (hA : Spec.bcd (Spec.inA w.CF (Spec.regA w.CA s.r)))
    (hB : Spec.bcd (Spec.inB w.CG (Spec.regB w.CB s.r))) :
    ∃ s' carry, cycle e w s = .ok s' ∧ carry ≤ 1 ∧ Spec.bcd (Spec.regD w.CD s'.r % 256) ∧
      Spec.dec (Spec.regD w.CD s'.r % 256) + 100 * carry = Spec.dec (Spec.inA w.CF (Spec.regA w.CA s.r)) +
        (if s.r.S / 128 % 2 = 1 then 99 - Spec.dec (Spec.inB w.CG (Spec.regB w.CB s.r)) else Spec.dec (Spec.inB w.CG (Spec.regB w.CB s.r))) +
        Spec.cin w.CC s.r.S ∧
      s'.q.stat / 4 % 2 = carry ∧ (w.CC = 4 ∨ w.CC = 5 ∨ w.CC = 6 → s'.r.S / 16 % 2 = carry) ∧
      (∀ i, 8 ≤ i → i ≤ 15 → i ≠ w.CD → Spec.regD i s'.r = Spec.regD i s.r) ∧ s'.r.R = s.r.R ∧ s'.m = s.m := by
  obtain ⟨s', p, pa, pb, p2⟩ := registerOp_phases (e := e) h hr (fun even => by
    obtain ⟨o, k, h1, -⟩ := alu_decimal w s.r.S even (Spec.regA w.CA s.r) (Spec.regB w.CB s.r) h.ok.CG hv hc hA hB
    exact ⟨o, k, h1⟩)
  obtain ⟨r1, r2, r3, r4, r5⟩ := registerOp_result h p hs
  obtain ⟨o, k, h1, h2, h3, h4, h5⟩ := alu_decimal w s.r.S p.s4.evenParity (Spec.regA w.CA s.r) (Spec.regB w.CB s.r) h.ok.CG hv hc hA hB
  have hal := p.hAlu
  rw [cycle_S p, pa, pb, h1] at hal
  obtain ⟨ho, hk⟩ := Prod.mk.inj (Res.ok.inj hal)
  obtain ⟨t1, t2, t3, -⟩ := tail_frame p
  rw [← ho] at r1
  rw [← hk] at r4 r5
  obtain ⟨-, c1, c2⟩ := saveCarry_spec w.CC k s.r.S hs h.ok.CC
  have hsub : Spec.sub w.CV s.r.S ↔ s.r.S / 128 % 2 = 1 := by unfold Spec.sub; rw [hv]; simp
  simp only [hsub] at h5
  refine ⟨s', if bit k 0x80 then 1 else 0, phases_cycle p, by split <;> omega, by rw [r1]; exact h4, ?_, r4, ?_, r2, ?_, ?_⟩
  · rw [r1, ← h5]
    split <;> omega
  · intro hcc
    rw [r5]
    exact (c1 hcc).1
  · rw [t3, if_neg (by have := h.cd; omega), p2]
  · rw [t1, p2]

/-! ## Numbers of any length -/

/-- The adder worked over the bytes of two fields from the low order end, each step as in a cycle with the carry saved in S
(cpu2030.c 1799-1900 and 2003-2008). -/
def chain (w : Ros) : Nat → List (Nat × Nat) → Res (List Nat × Nat)
  | s, [] => .ok ([], s)
  | s, (a, b) :: l => do
    let (o, k) ← alu w s false a b
    let (os, t) ← chain w (saveCarry w.CC k s) l
    .ok (o % 256 :: os, t)

theorem value_lt (base : Nat) (f : Nat → Nat) (l : List Nat) (h : ∀ x ∈ l, f x < base) : Spec.value base f l < base ^ l.length := by
  induction l with
  | nil => simp [Spec.value]
  | cons x l ih =>
    have h1 := h x (by simp)
    have h2 := ih (fun y hy => h y (by simp [hy]))
    simp only [Spec.value, List.length_cons, Nat.pow_succ]
    have : base * Spec.value base f l + base ≤ base ^ l.length * base := by
      rw [Nat.mul_comm (base ^ l.length) base, ← Nat.mul_succ]
      exact Nat.mul_le_mul_left _ h2
    omega

/-- **C53**, numbers of any length: adding byte by byte with the saved carry adds the numbers; with the complement latch set
it adds the complement, so that a carry in of one subtracts. -/
theorem C53_multi_byte (w : Ros) (s : Nat) (l : List (Nat × Nat)) (hcf : w.CF = 3) (hcg : w.CG = 3) (hv : w.CV < 3) (hcc : w.CC = 6)
    (hs : s < 256) :
    ∃ os t, chain w s l = .ok (os, t) ∧ os.length = l.length ∧ t < 256 ∧
      Spec.value 256 id os + 256 ^ l.length * (t / 16 % 2) =
        Spec.value 256 (· % 256) (l.map (·.1)) +
        (if Spec.sub w.CV s then 256 ^ l.length - 1 - Spec.value 256 (· % 256) (l.map (·.2)) else Spec.value 256 (· % 256) (l.map (·.2))) + s / 16 % 2 := by
  induction l generalizing s with
  | nil => exact ⟨[], s, rfl, rfl, hs, by simp [Spec.value]⟩
  | cons x l ih =>
    obtain ⟨a, b⟩ := x
    obtain ⟨o, k, h1, h2, h3, h4, h5⟩ := alu_binary w s false a b (by omega) hv (by rw [hcc]; unfold Spec.adds; omega)
    obtain ⟨c0, c1, c2⟩ := saveCarry_spec w.CC k s hs (by omega)
    obtain ⟨c1, c3, c4⟩ := c1 (by omega)
    obtain ⟨os, t, i1, i2, i3, i4⟩ := ih (saveCarry w.CC k s) c0
    refine ⟨o % 256 :: os, t, ?_, by simp [i2], i3, ?_⟩
    · unfold chain
      rw [h1, ok_bind]
      simp only
      rw [i1, ok_bind]
    · have hsub : Spec.sub w.CV (saveCarry w.CC k s) ↔ Spec.sub w.CV s := by
        unfold Spec.sub
        have : saveCarry w.CC k s / 128 % 2 = s / 128 % 2 := by
          rw [show 128 = 32 * 4 from rfl, ← Nat.div_div_eq_div_mul, ← Nat.div_div_eq_div_mul, c3]
        rw [this]
      have hcin : Spec.cin w.CC s = s / 16 % 2 := by unfold Spec.cin; rw [hcc]; rfl
      have hiA : Spec.inA w.CF a = a % 256 := by rw [hcf]; rfl
      have hiB : Spec.inB w.CG b = b % 256 := by rw [hcg]; rfl
      rw [hcin, hiA, hiB] at h4
      rw [c1] at i4
      simp only [hsub] at i4
      have hlt := value_lt 256 (· % 256) (l.map (·.2)) (fun x _ => Nat.mod_lt _ (by decide))
      rw [List.length_map] at hlt
      simp only [List.map_cons, Spec.value, List.length_cons, id, Nat.pow_succ]
      generalize hV : Spec.value 256 id os = V at *
      generalize hP : 256 ^ l.length = P at *
      generalize hX : Spec.value 256 (· % 256) (l.map (·.1)) = X at *
      generalize hY : Spec.value 256 (· % 256) (l.map (·.2)) = Y at *
      have hpt : P * 256 * (t / 16 % 2) = 256 * (P * (t / 16 % 2)) := by rw [Nat.mul_comm P 256, Nat.mul_assoc]
      rw [hpt]
      generalize P * (t / 16 % 2) = PT at *
      clear i1 i2 i3 c0 c1 c2 c3 c4 h1 h2 h3 h5 ih hV hP hX hY hpt
      have hb : b % 256 < 256 := Nat.mod_lt _ (by decide)
      by_cases hsb : Spec.sub w.CV s <;> by_cases hk : bit k 0x80 = true <;>
        simp only [hsb, hk, if_true, if_false, Bool.false_eq_true] at h4 i4 ⊢ <;> omega

/-- **C54**, numbers of any length: decimal fields with valid digits. -/
theorem C54_multi_byte (w : Ros) (s : Nat) (l : List (Nat × Nat)) (hcf : w.CF = 3) (hcg : w.CG = 3) (hv : w.CV = 3) (hcc : w.CC = 6)
    (hs : s < 256) (hd : ∀ x ∈ l, Spec.bcd (x.1 % 256) ∧ Spec.bcd (x.2 % 256)) :
    ∃ os t, chain w s l = .ok (os, t) ∧ os.length = l.length ∧ t < 256 ∧ (∀ x ∈ os, Spec.bcd x) ∧
      Spec.value 100 Spec.dec os + 100 ^ l.length * (t / 16 % 2) =
        Spec.value 100 (fun x => Spec.dec (x % 256)) (l.map (·.1)) +
        (if s / 128 % 2 = 1 then 100 ^ l.length - 1 - Spec.value 100 (fun x => Spec.dec (x % 256)) (l.map (·.2))
          else Spec.value 100 (fun x => Spec.dec (x % 256)) (l.map (·.2))) + s / 16 % 2 := by
  induction l generalizing s with
  | nil => exact ⟨[], s, rfl, rfl, hs, by simp, by simp [Spec.value]⟩
  | cons x l ih =>
    obtain ⟨a, b⟩ := x
    have hab := hd (a, b) (by simp)
    have hiA : Spec.inA w.CF a = a % 256 := by rw [hcf]; rfl
    have hiB : Spec.inB w.CG b = b % 256 := by rw [hcg]; rfl
    obtain ⟨o, k, h1, h2, h3, h4, h5⟩ := alu_decimal w s false a b (by omega) hv (by rw [hcc]; unfold Spec.adds; omega)
      (by rw [hiA]; exact hab.1) (by rw [hiB]; exact hab.2)
    obtain ⟨c0, c1, c2⟩ := saveCarry_spec w.CC k s hs (by omega)
    obtain ⟨c1, c3, c4⟩ := c1 (by omega)
    obtain ⟨os, t, i1, i2, i3, i5, i4⟩ := ih (saveCarry w.CC k s) c0 (fun x hx => hd x (by simp [hx]))
    refine ⟨o % 256 :: os, t, ?_, by simp [i2], i3, ?_, ?_⟩
    · unfold chain
      rw [h1, ok_bind]
      simp only
      rw [i1, ok_bind]
    · intro y hy
      rcases List.mem_cons.mp hy with rfl | hy
      · exact h4
      · exact i5 y hy
    · have hsub : saveCarry w.CC k s / 128 % 2 = s / 128 % 2 := by
        rw [show 128 = 32 * 4 from rfl, ← Nat.div_div_eq_div_mul, ← Nat.div_div_eq_div_mul, c3]
      have hsub2 : Spec.sub w.CV s ↔ s / 128 % 2 = 1 := by unfold Spec.sub; rw [hv]; simp
      have hcin : Spec.cin w.CC s = s / 16 % 2 := by unfold Spec.cin; rw [hcc]; rfl
      simp only [hcin, hiA, hiB, hsub2] at h5
      rw [c1, hsub] at i4
      have hlt := value_lt 100 (fun x => Spec.dec (x % 256)) (l.map (·.2)) (fun x hx => by
        obtain ⟨y, hy, rfl⟩ := List.mem_map.mp hx
        have := (hd y (by simp [hy])).2
        unfold Spec.bcd at this
        unfold Spec.dec
        omega)
      rw [List.length_map] at hlt
      have hb99 : Spec.dec (b % 256) ≤ 99 := by
        have := hab.2
        unfold Spec.bcd at this
        unfold Spec.dec
        simp only at this
        omega
      simp only [List.map_cons, Spec.value, List.length_cons, Nat.pow_succ]
      generalize hV : Spec.value 100 Spec.dec os = V at *
      generalize hP : 100 ^ l.length = P at *
      generalize hX : Spec.value 100 (fun x => Spec.dec (x % 256)) (l.map (·.1)) = X at *
      generalize hY : Spec.value 100 (fun x => Spec.dec (x % 256)) (l.map (·.2)) = Y at *
      have hpt : P * 100 * (t / 16 % 2) = 100 * (P * (t / 16 % 2)) := by rw [Nat.mul_comm P 100, Nat.mul_assoc]
      rw [hpt]
      generalize P * (t / 16 % 2) = PT at *
      generalize Spec.dec (b % 256) = db at *
      generalize Spec.dec (a % 256) = da at *
      generalize Spec.dec (o % 256) = do' at *
      clear i1 i2 i3 i5 c0 c1 c2 c3 c4 h1 h2 h3 h4 ih hV hP hX hY hpt
      by_cases hsb : s / 128 % 2 = 1 <;> by_cases hk : bit k 0x80 = true <;>
        simp only [hsb, hk, if_true, if_false, Bool.false_eq_true] at h5 i4 ⊢ <;> omega

/-- **C54 violated** for digits that are not decimal: adding a byte 0A-0F to zero makes the simulator look up parity
outside its table. -/
theorem C54_violated_invalid_digit (w : Ros) (sreg : Nat) (even : Bool) (a b : Nat) (hcf : w.CF = 3) (hcg : w.CG = 3) (hv : w.CV = 3)
    (hc : w.CC = 0) (hs : sreg / 128 % 2 = 0) (ha : a % 256 = 0) (hb : 10 ≤ b % 256 ∧ b % 256 ≤ 15) :
    alu w sreg even a b = .oob := by
  rw [alu_unfold w sreg even a b (by omega) (by omega)]
  have hiA : Spec.inA w.CF a = 0 := by rw [hcf]; exact ha
  have hiB : Spec.inB w.CG b = b % 256 := by rw [hcg]; rfl
  have hsub : ¬ Spec.sub w.CV sreg := by unfold Spec.sub; omega
  have hbi : biased w.CG w.CV sreg b = 96 + (b % 256 - 10) := by
    unfold biased
    rw [if_neg hsub, if_pos hv, hiB]
    omega
  have hcin : Spec.cin w.CC sreg = 0 := by rw [hc]; rfl
  have hcomb := combine_add (cc := w.CC) (Or.inl hc) 0 (96 + (b % 256 - 10)) 0
  rw [hiA, hbi, hcin, hcomb]
  simp only
  rw [if_pos hv, decFix_eq _ _ (Nat.mod_lt _ (by decide)), carries80 _ _ _ (by omega) (by omega) (by omega),
    carries08 _ _ _ (by omega) (by omega) (by omega)]
  rw [odd_oob]
  · rfl
  · simp only [decide_eq_true_eq]
    split <;> split <;> omega

/-! ## Parity -/

/-- D, L, G, T, V, U, J, I and H hold nine bits with odd parity. -/
def Spec.regsOdd (r : Regs) : Prop :=
  ∀ x ∈ [r.D, r.L, r.G, r.T, r.V, r.U, r.J, r.I, r.H], x < 512 ∧ Spec.oddParity x

theorem cycle_parity {e : Env} {w : Ros} {s s' : S} (h : cycle e w s = .ok s') (hk : w.CK ≠ 0x18) (he : s.evenParity = false)
    (hp : Spec.regsOdd s.r) : s'.evenParity = false ∧ Spec.regsOdd s'.r := by
  obtain ⟨p⟩ := cycle_phases h
  have e4 : p.s4.evenParity = false := by
    rw [(cycle_even p).1]
    apply ckFunc_even w _ hk
    show p.s2.evenParity = false
    rw [(cycle_even p).2, he]
  refine ⟨by rw [cycle_even' p, e4], ?_⟩
  have hal := alu_parity p.hAlu
  rw [e4] at hal
  have ho : p.o < 512 ∧ Spec.oddParity p.o := ⟨hal.1, hal.2.mpr rfl⟩
  have hK := cycle_K p
  intro x hx
  have hx' : x ∈ K s' := hx
  rw [hK] at hx'
  have hin : ∀ y, y ∈ [s.r.D, s.r.L, s.r.G, s.r.T, s.r.V, s.r.U, s.r.J, s.r.I, s.r.H] → y < 512 ∧ Spec.oddParity y := hp
  simp only [List.mem_cons, List.not_mem_nil, or_false] at hx'
  rcases hx' with h | h | h | h | h | h | h | h | h <;> (rw [h]; split <;> first | exact ho | (apply hin; simp))

/-- **C55**: whatever microprogram runs, whatever is in storage and on the channels, the registers loaded from the adder hold
bytes with odd parity, as long as even parity is not requested. -/
theorem C55_registers_odd (prog : List (Env × Ros)) (s s' : S) (h : run prog s = .ok s') (hk : ∀ x ∈ prog, x.2.CK ≠ 0x18)
    (he : s.evenParity = false) (hp : Spec.regsOdd s.r) : Spec.regsOdd s'.r := by
  induction prog generalizing s with
  | nil => cases h; exact hp
  | cons x l ih =>
    obtain ⟨e, w⟩ := x
    obtain ⟨s1, h1, h2⟩ := bind_ok (x := cycle e w s) h
    obtain ⟨e1, p1⟩ := cycle_parity h1 (hk (e, w) (by simp)) he hp
    exact ih s1 h2 (fun x hx => hk x (by simp [hx])) e1 p1

theorem testBit_of_bit {x i : Nat} (h : x.testBit i = true) : bit x (2 ^ i) = true := by rw [bit_pow, h]

/-- The machine check register only gains bits from the B bus to the end of the cycle. -/
theorem tail_MC {e : Env} {w : Ros} {s s' : S} (p : Phases e w s s') (i : Nat) :
    (p.s3.r.MC.testBit i = true → p.s4.r.MC.testBit i = true) ∧ (p.s4.r.MC.testBit i = true → s'.r.MC.testBit i = true) := by
  have hor : ∀ x y : Nat, x.testBit i = true → (x ||| y).testBit i = true := by
    intro x y h; rw [Nat.testBit_or, h]; rfl
  constructor
  · intro h
    have hA := p.bA
    unfold busA at hA
    obtain ⟨⟨x, chk, s1⟩, h1, hA⟩ := bind_ok hA
    obtain ⟨c, gr, ge, e1⟩ := srcA_K (x := (x, chk)) h1
    simp only [badParity_spec, ok_bind] at hA
    split at hA
    · have := (Prod.mk.inj (Res.ok.inj hA)).2
      rw [← this, e1]
      exact hor _ _ h
    · have := (Prod.mk.inj (Res.ok.inj hA)).2
      rw [← this, e1]
      exact h
  · intro h
    obtain ⟨x, y, e5⟩ := decLatch_K w p.s4
    have h5 : (decLatch w p.s4).r.MC.testBit i = true := by rw [e5]; exact h
    have h6 := (dest_R p.hDest).2.2.2.2.2.2.2.2.1 i h5
    have h7 : (carrySave w p.k p.s5).r.MC.testBit i = true := by
      unfold carrySave
      simp only
      (repeat' split) <;> simp only <;> first | exact hor _ _ (hor _ _ h6) | exact hor _ _ h6 | exact h6
    obtain ⟨x8, y8, z8, v8, c8, e8⟩ := csFunc_K e w p.o (carrySave w p.k p.s5)
    have h8 : (csFunc e w p.o (carrySave w p.k p.s5)).r.MC.testBit i = true := by rw [e8]; exact h7
    have hf := p.fin
    unfold finish at hf
    obtain ⟨b, -, hf⟩ := bind_ok hf
    have := Res.ok.inj hf
    rw [← congrArg (fun t => t.r.MC) this]
    simp only
    split
    · exact hor _ _ h8
    · exact h8

/-- **C55**, the other way: with even parity requested a loaded register has even parity, and a machine check is recorded. -/
theorem C55_even_parity_reported (e : Env) (w : Ros) (s s' : S) (h : cycle e w s = .ok s') (hk : w.CK = 0x18) (hd : 8 ≤ w.CD ∧ w.CD ≤ 15) :
    ¬ Spec.oddParity (Spec.regD w.CD s'.r) ∧ s'.r.MC % 2 = 1 := by
  obtain ⟨p⟩ := cycle_phases h
  have e4 : p.s4.evenParity = true := by
    rw [(cycle_even p).1]
    unfold ckFunc
    rw [hk]
    rfl
  have hal := alu_parity p.hAlu
  rw [e4] at hal
  constructor
  · have hK := cycle_K p
    unfold K at hK
    simp only [List.cons.injEq, and_true] at hK
    obtain ⟨d1, d2, d3, d4, d5, d6, d7, d8, d9⟩ := hK
    have : Spec.regD w.CD s'.r = p.o := by
      have : w.CD = 8 ∨ w.CD = 9 ∨ w.CD = 10 ∨ w.CD = 11 ∨ w.CD = 12 ∨ w.CD = 13 ∨ w.CD = 14 ∨ w.CD = 15 := by omega
      unfold Spec.regD
      rcases this with hc | hc | hc | hc | hc | hc | hc | hc
      · rw [hc]; exact d1.trans (if_pos hc)
      · rw [hc]; exact d2.trans (if_pos hc)
      · rw [hc]; exact d3.trans (if_pos hc)
      · rw [hc]; exact d4.trans (if_pos hc)
      · rw [hc]; exact d5.trans (if_pos hc)
      · rw [hc]; exact d6.trans (if_pos hc)
      · rw [hc]; exact d7.trans (if_pos hc)
      · rw [hc]; exact d8.trans (if_pos hc)
    rw [this]
    intro hg
    have := hal.2.mp hg
    simp at this
  · obtain ⟨x, y, e5⟩ := decLatch_K w p.s4
    have d7 := (dest_R p.hDest).2.2.2.2.2.2.1
    rw [e5] at d7
    have h7 : (carrySave w p.k p.s5).r.MC.testBit 0 = true := by
      have hor : ∀ x : Nat, (x ||| 1).testBit 0 = true := by intro x; rw [Nat.testBit_or]; simp
      have hor2 : ∀ x y : Nat, x.testBit 0 = true → (x ||| y).testBit 0 = true := by intro x y h; rw [Nat.testBit_or, h]; rfl
      have h55 : p.s5.evenParity = true := d7.trans e4
      unfold carrySave
      simp only [h55, Bool.true_or, if_true]
      split
      · exact hor2 _ _ (hor _)
      · exact hor _
    obtain ⟨x8, y8, z8, v8, c8, e8⟩ := csFunc_K e w p.o (carrySave w p.k p.s5)
    have h8 : (csFunc e w p.o (carrySave w p.k p.s5)).r.MC.testBit 0 = true := by rw [e8]; exact h7
    have hf := p.fin
    unfold finish at hf
    obtain ⟨b, -, hf⟩ := bind_ok hf
    have := Res.ok.inj hf
    have hm : s'.r.MC.testBit 0 = true := by
      rw [← congrArg (fun t => t.r.MC) this]
      simp only
      split
      · rw [Nat.testBit_or, h8]; rfl
      · exact h8
    rw [Nat.testBit_eq_decide_div_mod_eq] at hm
    simpa using hm

/-- **C71**: a microinstruction changes none of D, L, G, T, V, U, J, I, H other than the one its destination field names. -/
theorem C71_only_destination (e : Env) (w : Ros) (s s' : S) (h : cycle e w s = .ok s') :
    (w.CD ≠ 8 → s'.r.D = s.r.D) ∧ (w.CD ≠ 9 → s'.r.L = s.r.L) ∧ (w.CD ≠ 10 → s'.r.G = s.r.G) ∧ (w.CD ≠ 11 → s'.r.T = s.r.T) ∧
      (w.CD ≠ 12 → s'.r.V = s.r.V) ∧ (w.CD ≠ 13 → s'.r.U = s.r.U) ∧ (w.CD ≠ 14 → s'.r.J = s.r.J) ∧ (w.CD ≠ 15 → s'.r.I = s.r.I) ∧
      (w.CD ≠ 5 → s'.r.H = s.r.H) := by
  obtain ⟨p⟩ := cycle_phases h
  have hK := cycle_K p
  unfold K at hK
  simp only [List.cons.injEq, and_true] at hK
  obtain ⟨d1, d2, d3, d4, d5, d6, d7, d8, d9⟩ := hK
  exact ⟨fun h => d1.trans (if_neg h), fun h => d2.trans (if_neg h), fun h => d3.trans (if_neg h), fun h => d4.trans (if_neg h),
    fun h => d5.trans (if_neg h), fun h => d6.trans (if_neg h), fun h => d7.trans (if_neg h), fun h => d8.trans (if_neg h),
    fun h => d9.trans (if_neg h)⟩

/-- **C72**: a register with bad parity put on the B bus is reported in the machine check register at the end of the cycle. -/
theorem C72_b_bus_checked (e : Env) (w : Ros) (s s' : S) (h : cycle e w s = .ok s') (hse : e.secondErr = false) (hk : w.CK ≠ 0x14)
    (hb : (w.CB = 1 ∧ ¬ Spec.oddParity s.r.L) ∨ (w.CB = 2 ∧ ¬ Spec.oddParity s.r.D) ∨
      (w.CB = 0 ∧ ¬ Spec.oddParity s.r.R ∧ s.a.readCall = false)) :
    s'.r.MC / 64 % 2 = 1 := by
  obtain ⟨p⟩ := cycle_phases h
  obtain ⟨t1, t2⟩ := tail_MC p 6
  have h3 : p.s3.r.MC.testBit 6 = true := by
    have hB := p.bB
    obtain ⟨f1, f2, -⟩ := ckFunc_K w (step e w p.s2)
    have k1 : K (ckFunc w (step e w p.s2)) = K s := f1.trans ((memCtl_K p.ctl).1.trans (memRead_K p.read).1)
    unfold K at k1
    simp only [List.cons.injEq, and_true] at k1
    obtain ⟨d1, d2, -⟩ := k1
    unfold busB at hB
    rw [if_neg hk] at hB
    have hor : ∀ x : Nat, (x ||| 0x40).testBit 6 = true := by
      intro x
      rw [Nat.testBit_or]
      simp [show (64 : Nat).testBit 6 = true from by decide]
    rcases hb with ⟨hc, hg⟩ | ⟨hc, hg⟩ | ⟨hc, hg, hrc⟩
    · rw [hc] at hB
      simp only [ok_bind, badParity_spec] at hB
      rw [d2, hse, if_pos (by simpa [Good, Spec.oddParity] using hg)] at hB
      rw [← (Prod.mk.inj (Res.ok.inj hB)).2]
      exact hor _
    · rw [hc] at hB
      simp only [ok_bind, badParity_spec] at hB
      rw [d1, hse, if_pos (by simpa [Good, Spec.oddParity] using hg)] at hB
      rw [← (Prod.mk.inj (Res.ok.inj hB)).2]
      exact hor _
    · have h1 : p.s1 = s := by
        have := p.read
        unfold memRead at this
        rw [hrc] at this
        exact (Res.ok.inj this).symm
      have hR : (ckFunc w (step e w p.s2)).r.R = s.r.R := by
        rw [f2]
        have := congrArg (·.1) (memCtl_K p.ctl).2.1
        rw [h1] at this
        exact this
      rw [hc] at hB
      simp only [ok_bind, badParity_spec] at hB
      rw [hR, hse, if_pos (by simpa [Good, Spec.oddParity] using hg)] at hB
      rw [← (Prod.mk.inj (Res.ok.inj hB)).2]
      exact hor _
  have := t2 (t1 h3)
  rw [Nat.testBit_eq_decide_div_mod_eq] at this
  simpa using this

end Verif.Cpu30
