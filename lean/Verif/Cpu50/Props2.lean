import Verif.Cpu50.Props
import Verif.Cpu50.Irq2
import Verif.Cpu50.Conf

/-!
# Model 2050: properties C125-C129

The specification is `Isa.lean` with `Isa2.lean`: `interrupt` stores the old PSW and loads the
new one.  `a.Kept`: the copy of the left half of the PSW in local storage is up to date, which
holds from the first PSW loaded onwards (`stepI_kept`).  `Quiet a b` is needed only where the
timer does not tick and the processor is to be ready for the next instruction: the new PSW must
not enter the wait state nor enable what was disabled before.
-/

namespace Verif.Cpu50
open Verif.S360
attribute [local irreducible] ros

/-- C125. SUPERVISOR CALL: the old PSW, with the second byte of the instruction as interruption
code, the length of the instruction and the address of the next one, is stored at 20, the new
PSW is loaded from 60, and nothing else is changed. -/
theorem C125_supervisor_call {e : Env} {tk : Bool} {a b : Arch} {s : S} (ho : EnvOk e)
    (hm : 112 ≤ 4 * words e) (h : Ready e tk a s) (hia : InStore e a) (hk : a.Kept)
    (hop : opOf a.inst = 0x0a#8)
    (hb : b = interrupt { a with ia := a.ia + 2 } 0x20 ((immOf a.inst).setWidth 16) 1)
    (hw : tk = false → Quiet a b) (hi : InStore e b) (tick : Nat → Bool)
    (ht : ∀ i, tick i = true → tk = true) :
    ∃ n s', run e tick n s = .ok s' ∧ (Ready e tk b s' ∨ Pend e tk b s') := by
  have hop' : (opOf a.inst).toNat = 0x0a := by rw [hop]; rfl
  have h1 : Ev e tk (Bd e tk b) s := by
    refine Ev.bind (fetch_rr ho h (by omega) hia.rg) fun s1 f1 => ?_
    refine Ev.bind (to_op0 ho f1 (by omega)) fun s2 f2 => ?_
    exact svc_exec ho f2 hop' hk hm hb hw hi
  exact h1.run tick ht

/-- What the PSW and storage are after the interruption of C125, word by word. -/
theorem C125_words (a : Arch) (p : Nat) (c : BitVec 16) (l : BitVec 2) (hp : p % 4 = 0) :
    (interrupt a p c l).mem (p / 4) = a.mask ++ a.key ++ a.amwp ++ c ∧
    (interrupt a p c l).mem (p / 4 + 1) = l ++ a.cc ++ a.pm ++ a.ia.extractLsb' 0 24 ∧
    (∀ i, i ≠ p / 4 → i ≠ p / 4 + 1 → (interrupt a p c l).mem i = a.mem i) ∧
    (interrupt a p c l).mask = (a.mem (p / 4 + 16)).extractLsb' 24 8 ∧
    (interrupt a p c l).key = (a.mem (p / 4 + 16)).extractLsb' 20 4 ∧
    (interrupt a p c l).amwp = (a.mem (p / 4 + 16)).extractLsb' 16 4 ∧
    (interrupt a p c l).cc = (a.mem (p / 4 + 17)).extractLsb' 28 2 ∧
    (interrupt a p c l).pm = (a.mem (p / 4 + 17)).extractLsb' 24 4 ∧
    (interrupt a p c l).ia = a.mem (p / 4 + 17) &&& 0xffffff ∧
    (interrupt a p c l).gr = a.gr ∧ (interrupt a p c l).fr = a.fr ∧
    (interrupt a p c l).keys = a.keys := by
  have h4 : (p + 4) / 4 = p / 4 + 1 := by omega
  have h64 : (p + 64) / 4 = p / 4 + 16 := by omega
  have h68 : (p + 68) / 4 = p / 4 + 17 := by omega
  have hm : ∀ i, (interrupt a p c l).mem i = if i = p / 4 + 1 then link a l else
      if i = p / 4 then psw1 a c else a.mem i := by
    intro i
    rw [← h4]; rfl
  have h1 : ((a.store p (psw1 a c)).store (p + 4) (link a l)).mem (p / 4 + 16) =
      a.mem (p / 4 + 16) := by
    show (if p / 4 + 16 = (p + 4) / 4 then _ else if p / 4 + 16 = p / 4 then _ else _) = _
    rw [if_neg (by omega), if_neg (by omega)]
  have h2 : ((a.store p (psw1 a c)).store (p + 4) (link a l)).mem (p / 4 + 17) =
      a.mem (p / 4 + 17) := by
    show (if p / 4 + 17 = (p + 4) / 4 then _ else if p / 4 + 17 = p / 4 then _ else _) = _
    rw [if_neg (by omega), if_neg (by omega)]
  refine ⟨?_, ?_, ?_, ?_, ?_, ?_, ?_, ?_, ?_, rfl, rfl, rfl⟩
  · rw [hm, if_neg (by omega), if_pos rfl]; rfl
  · rw [hm, if_pos rfl]; rfl
  · intro i h3 h5
    rw [hm, if_neg h5, if_neg h3]
  · rw [← h1, ← h64]; rfl
  · rw [← h1, ← h64]; rfl
  · rw [← h1, ← h64]; rfl
  · rw [← h2, ← h68]; rfl
  · rw [← h2, ← h68]; rfl
  · rw [← h2, ← h68]; rfl

/-- Every cause of `trap`. -/
theorem trap_all {e : Env} {tk : Bool} {a b : Arch} {s : S} {c : BitVec 8}
    (ho : EnvOk e) (hm : 112 ≤ 4 * words e) (h : Ready e tk a s) (hia : InStore e a) (hk : a.Kept)
    (hc : trap (4 * words e) a = some c)
    (hb : b = interrupt a.next 0x28 (c.setWidth 16) (lenOf (opOf a.inst)))
    (hw : tk = false → Quiet a b) (hi : InStore e b) : Ev e tk (Bd e tk b) s := by
  unfold trap at hc
  split at hc
  · rename_i hu
    split at hc
    · exact nomatch hc
    · rename_i hx
      obtain rfl := Option.some.inj hc
      refine operation_exec ho h hia hk hm hu (fun h2 => ?_) hb hw hi
      cases h3 : Arch.within (4 * words e) 4 a.operand with
      | true => rfl
      | false => exact absurd ⟨h2, by rw [h3]; simp⟩ hx
  · split at hc
    · rename_i hp
      split at hc
      · exact nomatch hc
      · rename_i hpr
        split at hc
        · exact nomatch hc
        · rename_i h80
          split at hc
          · exact nomatch hc
          · rename_i h82
            obtain rfl := Option.some.inj hc
            refine privileged_exec ho h hia hk hm hp (by simpa using hpr) (fun h2 => ?_)
              (fun h2 => ?_) hb hw hi
            · cases h3 : Arch.within (4 * words e) 1 a.operand with
              | true => rfl
              | false => exact absurd ⟨h2, by rw [h3]; simp⟩ h80
            · cases h3 : Arch.within (4 * words e) 8 a.operand with
              | true => rfl
              | false => exact absurd ⟨h2, by rw [h3]; simp⟩ h82
    · split at hc
      · exact nomatch hc
      · rename_i n hn
        split at hc
        · rename_i hx
          obtain rfl := Option.some.inj hc
          exact protection_exec ho h hia hk hm hn hx.1 hx.2 hb hw hi
        · exact nomatch hc

/-- C126. Program interruptions: an operation code without instruction, a privileged instruction
in the problem state and a store into a protected block are suppressed. Nothing is changed but
the old PSW at 28, with the code of the cause, and the PSW, loaded from 68. -/
theorem C126_program_interruption {e : Env} {tk : Bool} {a b : Arch} {s : S} {c : BitVec 8}
    (ho : EnvOk e) (hm : 112 ≤ 4 * words e) (h : Ready e tk a s) (hia : InStore e a) (hk : a.Kept)
    (hc : trap (4 * words e) a = some c)
    (hb : b = interrupt a.next 0x28 (c.setWidth 16) (lenOf (opOf a.inst)))
    (hw : tk = false → Quiet a b) (hi : InStore e b) (tick : Nat → Bool)
    (ht : ∀ i, tick i = true → tk = true) :
    ∃ n s', run e tick n s = .ok s' ∧ (Ready e tk b s' ∨ Pend e tk b s') :=
  (trap_all ho hm h hia hk hc hb hw hi).run tick ht

/-- C127. LOAD PSW in the supervisor state replaces the PSW by the doubleword addressed and
changes nothing else. -/
theorem C127_load_psw {e : Env} {tk : Bool} {a b : Arch} {s : S} (ho : EnvOk e)
    (h : Ready e tk a s) (hia : InStore e a) (hop : opOf a.inst = 0x82#8)
    (hpr : a.problem = false) (hx : Arch.within (4 * words e) 8 a.operand = true)
    (hb : b = loadPsw a (a.mem (a.operand.toNat / 4)) (a.mem (a.operand.toNat / 4 + 1)))
    (hw : tk = false → Quiet a b) (hi : InStore e b) (tick : Nat → Bool)
    (ht : ∀ i, tick i = true → tk = true) :
    ∃ n s', run e tick n s = .ok s' ∧ (Ready e tk b s' ∨ Pend e tk b s') := by
  refine (lpsw_exec ho h hia (by rw [hop]; rfl) hpr hx ?_ hw hi).run tick ht
  rw [hb, show (a.operand.toNat + 4) / 4 = a.operand.toNat / 4 + 1 by omega]
  rfl

/-- One instruction, interruption included. -/
theorem stepI_exec {e : Env} {tk : Bool} {a b : Arch} {s : S} (ho : EnvOk e)
    (hm : 112 ≤ 4 * words e) (h : Ready e tk a s) (hia : InStore e a) (hk : a.Kept)
    (hv : stepI (4 * words e) a = some b) (hz : ¬ Selfmod a)
    (hw : tk = false → step (4 * words e) a = none → Quiet a b) (hi : InStore e b) :
    Ev e tk (Bd e tk b) s := by
  unfold stepI at hv
  split at hv
  · rename_i hs
    obtain rfl := Option.some.inj hv
    exact step_exec ho h hia hs hz hi
  · rename_i hs
    replace hw : tk = false → Quiet a b := fun h1 => hw h1 hs
    split at hv
    · rename_i hop
      obtain rfl := Option.some.inj hv
      rw [next2 (by omega)] at hw hi ⊢
      refine Ev.bind (fetch_rr ho h (by omega) hia.rg) fun s1 f1 => ?_
      refine Ev.bind (to_op0 ho f1 (by omega)) fun s2 f2 => ?_
      exact svc_exec ho f2 hop hk hm rfl hw hi
    · split at hv
      · rename_i hl
        obtain rfl := Option.some.inj hv
        exact lpsw_exec ho h hia hl.1 hl.2.1 hl.2.2 rfl hw hi
      · split at hv
        · rename_i c hc
          obtain rfl := Option.some.inj hv
          exact trap_all ho hm h hia hk hc rfl hw hi
        · exact nomatch hv

/-- Programs, interruptions included. -/
theorem progI_exec {e : Env} {tk : Bool} (ho : EnvOk e) (hm : 112 ≤ 4 * words e) :
    ∀ (k : Nat) {a : Arch} {s : S}, Bd e tk a s → a.Kept →
    (∀ j, j ≤ k → ∃ b, stepsI (4 * words e) j a = some b ∧ InStore e b) →
    (∀ j b, j < k → stepsI (4 * words e) j a = some b → ¬ Selfmod b) →
    (tk = false → ∀ j b c, j < k → stepsI (4 * words e) j a = some b →
      step (4 * words e) b = none → stepI (4 * words e) b = some c → Quiet b c) →
    Ev e tk (fun s' => ∃ j b, j ≤ k ∧ stepsI (4 * words e) j a = some b ∧
      ((j = k ∧ Ready e tk b s') ∨ Pend e tk b s')) s
  | 0, a, s, h, _, _, _, _ => by
    refine .now ⟨0, a, Nat.le_refl _, rfl, ?_⟩
    rcases h with h | h
    · exact .inl ⟨rfl, h⟩
    · exact .inr h
  | k + 1, a, s, h, hk, hin, hz, hw => by
    rcases h with h | h
    · obtain ⟨b0, hb0, hi0⟩ := hin 0 (by omega)
      obtain rfl := Option.some.inj hb0
      obtain ⟨b1, hb1, hi1⟩ := hin 1 (by omega)
      have hst : stepI (4 * words e) a = some b1 := by
        simp only [stepsI] at hb1
        cases hs : stepI (4 * words e) a with
        | none => rw [hs] at hb1; exact nomatch hb1
        | some c => rw [hs] at hb1; exact hb1
      have hs1 : ∀ j, stepsI (4 * words e) (j + 1) a = stepsI (4 * words e) j b1 := by
        intro j; simp only [stepsI, hst, Option.bind_some]
      refine Ev.bind (stepI_exec ho hm h hi0 hk hst (hz 0 a (by omega) rfl)
        (fun h2 h3 => hw h2 0 a b1 (by omega) rfl h3 hst) hi1) fun s1 h1 => ?_
      refine Ev.bind (progI_exec ho hm k h1 (stepI_kept hk hst) (fun j hj => ?_)
        (fun j b hj hb => ?_) (fun h2 j b c hj hb => ?_)) fun s2 h2 => .now ?_
      · obtain ⟨b, hb, hib⟩ := hin (j + 1) (by omega)
        exact ⟨b, by rw [← hs1]; exact hb, hib⟩
      · exact hz (j + 1) b (by omega) (by rw [hs1]; exact hb)
      · exact hw h2 (j + 1) b c (by omega) (by rw [hs1]; exact hb)
      · obtain ⟨j, b, hj, hb, h3⟩ := h2
        refine ⟨j + 1, b, by omega, by rw [hs1]; exact hb, ?_⟩
        rcases h3 with ⟨h3, h4⟩ | h3
        · exact .inl ⟨by omega, h4⟩
        · exact .inr h3
    · exact .now ⟨0, a, Nat.zero_le _, rfl, .inr h⟩

/-- C128. Systems: a program and the supervisor it calls, with its interruptions, are carried
out as the architecture prescribes for any number of instructions; with the timer ticking at
any time, up to an interruption between two of them. -/
theorem C128_system {e : Env} {tk : Bool} {a : Arch} {s : S} (ho : EnvOk e)
    (hm : 112 ≤ 4 * words e) (k : Nat) (h : Ready e tk a s) (hk : a.Kept)
    (hin : ∀ j, j ≤ k → ∃ b, stepsI (4 * words e) j a = some b ∧ InStore e b)
    (hz : ∀ j b, j < k → stepsI (4 * words e) j a = some b → ¬ Selfmod b)
    (hw : tk = false → ∀ j b c, j < k → stepsI (4 * words e) j a = some b →
      step (4 * words e) b = none → stepI (4 * words e) b = some c → Quiet b c)
    (tick : Nat → Bool) (ht : ∀ i, tick i = true → tk = true) :
    ∃ n s', run e tick n s = .ok s' ∧ ∃ j b, j ≤ k ∧ stepsI (4 * words e) j a = some b ∧
      ((j = k ∧ Ready e tk b s') ∨ Pend e tk b s') :=
  (progI_exec ho hm k (.inl h) hk hin hz hw).run tick ht

/-- C129. Confinement: whatever a program does (any number of instructions, the timer ticking
at any time), the protection key, the problem state bit, the system mask and the storage keys
of the processor are what they were, and so is every word of storage in a block whose key is
not the program's. -/
theorem C129_confined {e : Env} {a : Arch} {s : S} (ho : EnvOk e) (k : Nat)
    (h : Ready e true a s)
    (hin : ∀ j, j ≤ k → ∃ c, steps (4 * words e) j a = some c ∧ InStore e c)
    (hz : ∀ j c, j < k → steps (4 * words e) j a = some c → ¬ Selfmod c) (tick : Nat → Bool) :
    ∃ n s', run e tick n s = .ok s' ∧
      (∃ j b, j ≤ k ∧ steps (4 * words e) j a = some b ∧
        ((j = k ∧ Ready e true b s') ∨ Pend e true b s')) ∧
      s'.KEY = s.KEY ∧ s'.AMWP = s.AMWP ∧ s'.MASK = s.MASK ∧ s'.MP = s.MP ∧
      ∀ i, s.KEY ≠ 0 → s.MP (i / 512) ≠ s.KEY.setWidth 8 → s'.mem i = s.mem i := by
  obtain ⟨n, s', h1, j, b, hj, hb, h2⟩ := C112_precise ho k h hin hz tick
  have hsm : Same a b := steps_same (steps (4 * words e)) (fun _ => rfl) (fun _ _ => rfl) j hb
  have hv := h.visible
  have hv' : { archOf s' with ia := b.ia } = b := by
    rcases h2 with ⟨-, h2⟩ | h2
    · exact h2.visible
    · rcases h2.at' with h2 | h2 | h2 <;> rw [← h2.2] <;> rfl
  have f : ∀ {α : Type} (g : Arch → α), g ({ archOf s with ia := a.ia } : Arch) = g a ∧
      g ({ archOf s' with ia := b.ia } : Arch) = g b := fun g => ⟨congrArg g hv, congrArg g hv'⟩
  have hk1 : s.KEY = a.key := (f Arch.key).1
  have hk2 : s'.KEY = b.key := (f Arch.key).2
  have hp1 : s.MP = a.keys := (f Arch.keys).1
  have hp2 : s'.MP = b.keys := (f Arch.keys).2
  have hm1 : s.mem = a.mem := (f Arch.mem).1
  have hm2 : s'.mem = b.mem := (f Arch.mem).2
  refine ⟨n, s', h1, ⟨j, b, hj, hb, h2⟩, ?_, ?_, ?_, ?_, ?_⟩
  · rw [hk1, hk2, hsm.key]
  · exact ((f Arch.amwp).2.trans hsm.amwp).trans (f Arch.amwp).1.symm
  · exact ((f Arch.mask).2.trans hsm.mask).trans (f Arch.mask).1.symm
  · rw [hp1, hp2, hsm.keys]
  · intro i h3 h4
    rw [hm1, hm2]
    exact hsm.mem i (by rw [← hk1]; exact h3) (by rw [← hk1, ← hp1]; exact h4)

/-- C128. Call and return: when the supervisor answers a SUPERVISOR CALL with LOAD PSW of the old
PSW, the program goes on after the call with its registers, condition code, program mask, keys
and PSW; of storage only the old PSW at 20 has changed. -/
theorem C128_call_returns {lim : Nat} {a b : Arch} (hlim : 0x28 ≤ lim)
    (hop : opOf a.inst = 0x0a#8) (hia : a.ia.toNat + 2 < 2 ^ 24)
    (hb : b = interrupt { a with ia := a.ia + 2 } 0x20 ((immOf a.inst).setWidth 16) 1)
    (h1 : b.inst = 0x8200#16) (h2 : b.half (b.ia.toNat + 2) = 0x0020#16)
    (h3 : b.problem = false) :
    ∃ c, stepsI lim 2 a = some c ∧ c.gr = a.gr ∧ c.fr = a.fr ∧ c.cc = a.cc ∧ c.pm = a.pm ∧
      c.ia = a.ia + 2 ∧ c.key = a.key ∧ c.amwp = a.amwp ∧ c.mask = a.mask ∧ c.keys = a.keys ∧
      ∀ i, i ≠ 8 → i ≠ 9 → c.mem i = a.mem i := by
  have hs1 : stepI lim a = some b := by
    have h0 : step lim a = none := by
      unfold step rr
      rw [hop]; rfl
    unfold stepI
    rw [h0, next2 (by rw [hop]; decide), hop, hb]; rfl
  have hop2 : (opOf b.inst).toNat = 0x82 := by rw [h1]; rfl
  have hx : b.operand = 0x20#32 := by
    unfold Arch.operand indexOf
    rw [h2, hop2, if_neg (by decide)]
    unfold ea
    rw [if_pos rfl, if_pos (by decide)]; rfl
  have hs2 : stepI lim b = some (loadPsw b.next (b.mem 8) (b.mem 9)) := by
    have h0 : step lim b = none := by
      unfold step rs
      rw [hop2]; rfl
    have hw : Arch.within lim 8 0x20#32 = true := by
      unfold Arch.within
      rw [decide_eq_true (by exact hlim)]; rfl
    unfold stepI
    rw [h0, hx]
    show (if (opOf b.inst).toNat = 0x0a then _ else if (opOf b.inst).toNat = 0x82 ∧
      b.problem = false ∧ Arch.within lim 8 0x20#32 = true then _ else _) = _
    rw [if_neg (by omega), if_pos ⟨hop2, h3, hw⟩]; rfl
  obtain ⟨m1, m2, m3, -, -, -, -, -, -, g1, g2, g3⟩ := C125_words { a with ia := a.ia + 2 } 0x20
    ((immOf a.inst).setWidth 16) 1 rfl
  rw [← hb] at m1 m2 m3 g1 g2 g3
  refine ⟨loadPsw b.next (b.mem 8) (b.mem 9), ?_, g1, g2, ?_, ?_, ?_, ?_, ?_, ?_, g3, m3⟩
  · simp only [stepsI, hs1, hs2, Option.bind_some]
  · show (b.mem 9).extractLsb' 28 2 = _
    rw [show b.mem 9 = _ from m2]
    apply BitVec.eq_of_getLsbD_eq; intro i hi
    simp only [BitVec.getLsbD_extractLsb', BitVec.getLsbD_append]
    interval_cases i <;> simp
  · show (b.mem 9).extractLsb' 24 4 = _
    rw [show b.mem 9 = _ from m2]
    apply BitVec.eq_of_getLsbD_eq; intro i hi
    simp only [BitVec.getLsbD_extractLsb', BitVec.getLsbD_append]
    interval_cases i <;> simp
  · show b.mem 9 &&& 0xffffff#32 = _
    rw [show b.mem 9 = _ from m2]
    have h9 : (a.ia + 2) &&& 16777215#32 = a.ia + 2 := by
      apply BitVec.eq_of_toNat_eq
      rw [BitVec.toNat_and, BitVec.toNat_add]
      show (a.ia.toNat + 2) % 2 ^ 32 &&& (2 ^ 24 - 1) = (a.ia.toNat + 2) % 2 ^ 32
      rw [Nat.and_two_pow_sub_one_eq_mod]
      omega
    conv_rhs => rw [← h9]
    apply BitVec.eq_of_getLsbD_eq; intro i hi
    simp only [BitVec.getLsbD_and, BitVec.getLsbD_append, BitVec.getLsbD_extractLsb']
    interval_cases i <;> simp
  · show (b.mem 8).extractLsb' 20 4 = _
    rw [show b.mem 8 = _ from m1]
    apply BitVec.eq_of_getLsbD_eq; intro i hi
    simp only [BitVec.getLsbD_extractLsb', BitVec.getLsbD_append]
    interval_cases i <;> simp
  · show (b.mem 8).extractLsb' 16 4 = _
    rw [show b.mem 8 = _ from m1]
    apply BitVec.eq_of_getLsbD_eq; intro i hi
    simp only [BitVec.getLsbD_extractLsb', BitVec.getLsbD_append]
    interval_cases i <;> simp
  · show (b.mem 8).extractLsb' 24 8 = _
    rw [show b.mem 8 = _ from m1]
    apply BitVec.eq_of_getLsbD_eq; intro i hi
    simp only [BitVec.getLsbD_extractLsb', BitVec.getLsbD_append]
    interval_cases i <;> simp

/-! ### Concrete cases -/

/-- A program with protection key 3 in the problem state, at 100: `SVC 5`, `LA 1,7`,
`ST 1,200`, `SSK 1,2`, code 52. The supervisor at 300 (calls) returns; the one at 400 (program
interruptions) also does. -/
def system : Nat → W
  | 0x18 => 0x00000000
  | 0x19 => 0x00000300
  | 0x1a => 0x00000000
  | 0x1b => 0x00000400
  | 0x40 => 0x0a054110
  | 0x41 => 0x00075010
  | 0x42 => 0x02000812
  | 0x43 => 0x52000200
  | 0xc0 => 0x82000020
  | 0x100 => 0x82000028
  | _ => 0

/-- The processor between two instructions, about to fetch the first. -/
def startP (mp : Nat → B) : S :=
  { initMem := true, ms := .w1, ROAR := 0x14a, SAR := 0x100, IA := 0x100, mem := system, KEY := 3,
    AMWP := 1, MP := mp, LS := fun i => if i = 23 then 0x00310000 else 0 }

/-- Its architecture state. -/
def archP (mp : Nat → B) : Arch :=
  { gr := fun _ => 0, fr := fun _ => 0, cc := 0, pm := 0, ia := 0x100, mem := system, keys := mp,
    key := 3, amwp := 1, mask := 0, sys := 0x00310000 }

theorem startP_arch (mp : Nat → B) : archOf (startP mp) = archP mp := by
  have h1 : ∀ i : BitVec 4, (3#2 ++ i : BitVec 6) ≠ 23 := by decide
  have h2 : ∀ i : BitVec 4, (2#2 ++ i : BitVec 6) ≠ 23 := by decide
  unfold archOf archP startP
  refine Arch.mk.injEq .. ▸ ⟨?_, ?_, rfl, rfl, rfl, rfl, rfl, rfl, rfl, rfl, rfl⟩
  · funext i; exact if_neg (h1 i)
  · funext i; exact if_neg (h2 i)

theorem startP_ready (tk : Bool) (mp : Nat → B) : Ready e64 tk (archP mp) (startP mp) := by
  refine .even ⟨rfl, rfl, rfl, ?_, (fun h => nomatch h), fun _ => by simp [exc, startP]⟩ ?_ (.inl rfl)
    (startP_arch mp) ?_ ?_
  · show (0x100#32).toNat ≤ _
    decide
  · show (0#8).toNat < 16
    decide
  · show (0x100#32).toNat % 4 = 0
    decide
  · show (0x100#32).toNat / 4 = (0x100#32).toNat / 4
    rfl

/-- A run of the specification in which each instruction meets the hypotheses. -/
def okRunI (lim : Nat) : Nat → Arch → Bool
  | 0, a => a.ia.toNat % 2 == 0 && decide (a.ia.toNat + 8 ≤ lim)
  | k + 1, a => a.ia.toNat % 2 == 0 && decide (a.ia.toNat + 8 ≤ lim) &&
      !(decide ((opOf a.inst).toNat = 0x50) && decide ((a.ia + 4).toNat % 4 = 2) &&
        decide ((ea a (dig2 a.inst) ((a.half (a.ia.toNat + 2)).extractLsb' 12 4)
          ((a.half (a.ia.toNat + 2)).extractLsb' 0 12)).toNat / 4 = (a.ia + 4).toNat / 4)) &&
      (match stepI lim a with
       | none => false
       | some b => (b.amwp &&& 2 == 0) && (b.mask &&& a.mask == b.mask) && okRunI lim k b)

theorem okRunI_spec {e : Env} : ∀ (k : Nat) (a : Arch), okRunI (4 * words e) k a = true →
    (∀ j, j ≤ k → ∃ c, stepsI (4 * words e) j a = some c ∧ InStore e c) ∧
    (∀ j c, j < k → stepsI (4 * words e) j a = some c → ¬ Selfmod c) ∧
    (∀ j b c, j < k → stepsI (4 * words e) j a = some b → stepI (4 * words e) b = some c →
      Quiet b c)
  | 0, a, h => by
    simp only [okRunI, Bool.and_eq_true, beq_iff_eq, decide_eq_true_eq] at h
    refine ⟨fun j hj => ?_, fun j c hj => absurd hj (by omega), fun j b c hj => absurd hj (by omega)⟩
    obtain rfl : j = 0 := by omega
    exact ⟨a, rfl, ⟨h.1, h.2⟩⟩
  | k + 1, a, h => by
    simp only [okRunI, Bool.and_eq_true, beq_iff_eq, decide_eq_true_eq] at h
    obtain ⟨⟨⟨h1, h2⟩, h3⟩, h4⟩ := h
    cases hs : stepI (4 * words e) a with
    | none => rw [hs] at h4; exact nomatch h4
    | some b =>
      rw [hs] at h4
      simp only [Bool.and_eq_true, beq_iff_eq] at h4
      obtain ⟨⟨hq1, hq2⟩, h4⟩ := h4
      obtain ⟨h5, h6, h7⟩ := okRunI_spec k b h4
      have hj : ∀ j, stepsI (4 * words e) (j + 1) a = stepsI (4 * words e) j b := by
        intro j; simp only [stepsI, hs, Option.bind_some]
      refine ⟨fun j hj' => ?_, fun j c hj' hc => ?_, fun j c d hj' hc hd => ?_⟩
      · cases j with
        | zero => exact ⟨a, rfl, ⟨h1, h2⟩⟩
        | succ j => rw [hj]; exact h5 j (by omega)
      · cases j with
        | zero =>
          obtain rfl := Option.some.inj hc
          rintro ⟨h7, h8, h9⟩
          have h8' : (a.ia + 4).toNat % 4 = 2 := h8
          have h9' : (ea a (dig2 a.inst) ((a.half (a.ia.toNat + 2)).extractLsb' 12 4)
            ((a.half (a.ia.toNat + 2)).extractLsb' 0 12)).toNat / 4 = (a.ia + 4).toNat / 4 := h9
          rw [decide_eq_true h7, decide_eq_true h8', decide_eq_true h9'] at h3
          exact nomatch h3
        | succ j => rw [hj] at hc; exact h6 j c (by omega) hc
      · cases j with
        | zero =>
          obtain rfl := Option.some.inj hc
          rw [hs] at hd
          obtain rfl := Option.some.inj hd
          exact ⟨hq1, hq2⟩
        | succ j => rw [hj] at hc; exact h7 j c d (by omega) hc hd

theorem system_ok : okRunI (4 * words e64) 9 (archP fun i => if i = 0 then 4 else 3) = true := by
  decide +kernel

/-- The first nine instructions: call, return, load, three suppressed instructions each with its
return. The word at 200 is protected and keeps its zero; the old PSWs show the call, and the last
of the three program interruptions, key 3, problem state, code 1 and the address 110. -/
theorem system_spec : (stepsI (4 * words e64) 9 (archP fun i => if i = 0 then 4 else 3)).map
    (fun b => ((b.gr 1, b.mem 0x80, b.mem 8), b.mem 10, b.mem 11, b.problem)) =
    some ((7, 0, 0x00310005), 0x00310001, 0x80000110, true) := by
  decide +kernel

/-- Not vacuous (C125 to C128): the processor runs the system. -/
theorem C128_example : ∃ n s', run e64 (fun _ => false) n
    (startP fun i => if i = 0 then 4 else 3) = .ok s' ∧
    (archOf s').gr 1 = 7 ∧ (archOf s').mem 0x80 = 0 ∧ (archOf s').mem 8 = 0x00310005 ∧
    (archOf s').mem 10 = 0x00310001 ∧ (archOf s').mem 11 = 0x80000110 := by
  obtain ⟨h1, h2, h3⟩ := okRunI_spec (e := e64) 9 _ system_ok
  obtain ⟨b, hb, -⟩ := h1 9 (Nat.le_refl _)
  obtain ⟨n, s', h4, j, c, hj, hc, h5⟩ := C128_system (tk := false) e64_ok (by decide) 9
    (startP_ready false _) (by unfold Arch.Kept archP; decide) h1 h2
    (fun _ j b c hj hb _ hc => h3 j b c hj hb hc) (fun _ => false) (by simp)
  rcases h5 with ⟨rfl, h5⟩ | h5
  · have h6 := system_spec
    rw [hc] at h6
    simp only [Option.map_some, Option.some.injEq, Prod.mk.injEq] at h6
    obtain ⟨⟨g1, g2, g3⟩, g4, g5, -⟩ := h6
    have h7 := h5.visible
    refine ⟨n, s', h4, ?_, ?_, ?_, ?_, ?_⟩
    · exact (congrArg (fun a => Arch.gr a 1) h7).trans g1
    · exact (congrArg (fun a => Arch.mem a 0x80) h7).trans g2
    · exact (congrArg (fun a => Arch.mem a 8) h7).trans g3
    · exact (congrArg (fun a => Arch.mem a 10) h7).trans g4
    · exact (congrArg (fun a => Arch.mem a 11) h7).trans g5
  · exact nomatch h5.may

/-- Not vacuous (C129): the program of C111 with key 3 in its own block, next to others. -/
example (tick : Nat → Bool) : ∃ n s', run e64 tick n
    (start sum10 3 fun i => if i = 0 then 3 else 5) = .ok s' ∧
    s'.KEY = 3 ∧ ∀ i, 512 ≤ i → s'.mem i = 0 := by
  have hok : okRun (4 * words e64) 23 (arch0 sum10 3 (fun i => if i = 0 then 3 else 5)) = true := by
    decide +kernel
  obtain ⟨n, s', h1, -, h2, -, -, -, h3⟩ := C129_confined e64_ok 23
    (start_ready true sum10 3 fun i => if i = 0 then 3 else 5) (okRun_spec 23 _ hok).1
    (okRun_spec 23 _ hok).2 tick
  refine ⟨n, s', h1, h2, fun i hi => ?_⟩
  rw [h3 i (by show (3#4) ≠ 0; decide) ?_]
  · show sum10 i = 0
    unfold sum10
    split <;> first | omega | rfl
  · show (if i / 512 = 0 then 3#8 else 5#8) ≠ _
    rw [if_neg (by omega)]
    show 5#8 ≠ (3#4).setWidth 8
    decide

end Verif.Cpu50
