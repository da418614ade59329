import Verif.Cpu50.Isa

/-!
# System/360: instructions which end in an interruption

The second part of the specification, also written from the *Principles of Operation*:
SUPERVISOR CALL, LOAD PSW and the program interruptions for an operation code without
instruction, for a privileged instruction in the problem state and for a protected store.
`none` is any case not treated here.
-/

namespace Verif.S360

/-- The number of bytes stored by an instruction. -/
def storeLen (op : BitVec 8) : Option Nat :=
  match op.toNat with
  | 0x40 => some 2
  | 0x42 => some 1
  | 0x50 => some 4
  | 0x92 => some 1
  | 0x94 => some 1
  | 0x96 => some 1
  | 0x97 => some 1
  | _ => none

/-- The index register of an instruction; zero, meaning none, if it is not RX. -/
def indexOf (i : BitVec 16) : BitVec 4 := if (opOf i).toNat < 0x80 then dig2 i else 0

/-- The operand address of the instruction at `a.ia`. -/
def Arch.operand (a : Arch) : BitVec 32 :=
  ea a (indexOf a.inst) ((a.half (a.ia.toNat + 2)).extractLsb' 12 4)
    ((a.half (a.ia.toNat + 2)).extractLsb' 0 12)

/-- The length of an instruction in halfwords, from its first two bits. -/
def lenOf (op : BitVec 8) : BitVec 2 :=
  if op.toNat < 0x40 then 1 else if op.toNat < 0xc0 then 2 else 3

/-- The state with the address of the next instruction. -/
def Arch.next (a : Arch) : Arch :=
  { a with ia := a.ia + 2 * (lenOf (opOf a.inst)).setWidth 32 }

/-- Operation codes below C0 without an instruction (84 and 85 are the direct control
feature). -/
def unassigned (op : BitVec 8) : Bool :=
  decide (op.toNat ∈ [0x00, 0x01, 0x02, 0x03, 0x0b, 0x0c, 0x0d, 0x0e, 0x0f, 0x4d, 0x51, 0x52,
    0x53, 0x81, 0x84, 0x85, 0x99, 0x9a, 0x9b]) ||
    decide (0xa0 ≤ op.toNat ∧ op.toNat < 0xc0)

/-- SSK, ISK, SSM, LPSW, diagnose, SIO, TIO, HIO and TCH. -/
def privileged (op : BitVec 8) : Bool :=
  decide (op.toNat ∈ [0x08, 0x09, 0x80, 0x82, 0x83, 0x9c, 0x9d, 0x9e, 0x9f])

/-- The problem state. -/
def Arch.problem (a : Arch) : Bool := a.amwp.getLsbD 0

/-- The program interruption an instruction leads to: 1 operation, 2 privileged operation, 4
protection. Where the instruction also names an operand in storage which is not there or not
on its boundary, there is a second cause, and nothing is said here. -/
def trap (lim : Nat) (a : Arch) : Option (BitVec 8) :=
  if unassigned (opOf a.inst) then
    if (opOf a.inst).toNat / 16 = 5 ∧ ¬ Arch.within lim 4 a.operand then none else some 1
  else if privileged (opOf a.inst) then
    if a.problem = false then none
    else if (opOf a.inst).toNat = 0x80 ∧ ¬ Arch.within lim 1 a.operand then none
    else if (opOf a.inst).toNat = 0x82 ∧ ¬ Arch.within lim 8 a.operand then none
    else some 2
  else
    match storeLen (opOf a.inst) with
    | none => none
    | some n => if Arch.within lim n a.operand ∧ a.permits a.operand = false then some 4 else none

/-- One instruction, with the interruption it leads to: SUPERVISOR CALL (old PSW at 20, the code
is the second byte of the instruction), LOAD PSW, program interruptions (old PSW at 28). -/
def stepI (lim : Nat) (a : Arch) : Option Arch :=
  match step lim a with
  | some b => some b
  | none =>
    if (opOf a.inst).toNat = 0x0a then
      some (interrupt a.next 0x20 ((immOf a.inst).setWidth 16) 1)
    else if (opOf a.inst).toNat = 0x82 ∧ a.problem = false ∧ Arch.within lim 8 a.operand then
      some (loadPsw a.next (a.mem (a.operand.toNat / 4)) (a.mem ((a.operand.toNat + 4) / 4)))
    else
      match trap lim a with
      | some c => some (interrupt a.next 0x28 (c.setWidth 16) (lenOf (opOf a.inst)))
      | none => none

/-- `k` instructions, with the interruptions they lead to. -/
def stepsI (lim : Nat) : Nat → Arch → Option Arch
  | 0, a => some a
  | k + 1, a => (stepI lim a).bind (stepsI lim k)

/-- The interval timer is the word at byte address 80. It counts down in units of 1/300 s in its
bit 23; one tick of the host's clock is 1/50 s, six units. -/
def Arch.timerTick (a : Arch) : Arch := a.store 80 (a.mem 20 - 0x600#32)

/-- The tick takes the timer from a value which is not negative to a negative one. -/
def spent (v : BitVec 32) : Bool := decide (0 ≤ v.toInt) && decide ((v - 0x600#32).toInt < 0)

/-- The external interruption code: the timer is 80, the interrupt key 40 (hexadecimal). -/
def extCode (timer : Bool) : BitVec 16 := if timer then 0x80 else 0x40

/-- What may happen between two instructions: the next instruction, a tick of the timer, an
external interruption (by the timer or not, with any instruction length code). -/
inductive Event where
  | instr
  | tick
  | ext (timer : Bool) (ilc : BitVec 2)

/-- Its effect. External interruptions are taken only when bit 7 of the system mask is one. -/
def Event.apply (lim : Nat) (a : Arch) : Event → Option Arch
  | .instr => stepI lim a
  | .tick => some a.timerTick
  | .ext t ilc => if a.mask &&& 1 = 0 then none else some (interrupt a 24 (extCode t) ilc)

/-- One after the other. -/
def events (lim : Nat) : List Event → Arch → Option Arch
  | [], a => some a
  | v :: l, a => (v.apply lim a).bind (events lim l)

end Verif.S360
