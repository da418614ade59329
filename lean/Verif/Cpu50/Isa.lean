/-!
# System/360 instructions

The part of the architecture used as the specification of the Model 2050, written from the
*Principles of Operation* and not from the simulator: registers, condition code, program
mask, storage, and the effect of an instruction on them as integer arithmetic.  `none` is
any case in which an interruption or an instruction not treated here is due.
-/

namespace Verif.S360

/-- Program visible state. `mem i` is the word at byte address `4 * i`, `keys i` the storage
key (0 to 15) of block `i` of 2048 bytes, `sys` the word the left half of the PSW was last
loaded from (the processor keeps a copy; see
`Arch.Kept`). -/
structure Arch where
  gr : BitVec 4 → BitVec 32
  fr : BitVec 4 → BitVec 32
  cc : BitVec 2
  pm : BitVec 4
  ia : BitVec 32
  mem : Nat → BitVec 32
  keys : Nat → BitVec 8
  key : BitVec 4
  amwp : BitVec 4
  mask : BitVec 8
  sys : BitVec 32

namespace Arch

/-- The halfword at byte address `x` (even). -/
def half (a : Arch) (x : Nat) : BitVec 16 :=
  if x % 4 = 0 then (a.mem (x / 4)).extractLsb' 16 16 else (a.mem (x / 4)).extractLsb' 0 16

/-- The byte at address `x`. -/
def byte (a : Arch) (x : Nat) : BitVec 8 := (a.mem (x / 4)).extractLsb' (24 - 8 * (x % 4)) 8

/-- The halfword the next instruction begins with. -/
def inst (a : Arch) : BitVec 16 := a.half a.ia.toNat

/-- Change one general register. -/
def put (a : Arch) (r : BitVec 4) (v : BitVec 32) : Arch :=
  { a with gr := fun i => if i = r then v else a.gr i }

/-- Set the condition code. -/
def setCC (a : Arch) (c : BitVec 2) : Arch := { a with cc := c }

/-- Change the word at byte address `x` (a multiple of four). -/
def store (a : Arch) (x : Nat) (v : BitVec 32) : Arch :=
  { a with mem := fun i => if i = x / 4 then v else a.mem i }

/-- Change the byte at address `x`. -/
def storeByte (a : Arch) (x : Nat) (v : BitVec 8) : Arch :=
  a.store x ((a.mem (x / 4) &&& ~~~(0xff#32 <<< (24 - 8 * (x % 4)))) |||
    v.setWidth 32 <<< (24 - 8 * (x % 4)))

/-- Change the halfword at byte address `x` (even). -/
def storeHalf (a : Arch) (x : Nat) (v : BitVec 16) : Arch :=
  a.store x (if x % 4 = 0 then v ++ (a.mem (x / 4)).extractLsb' 0 16
             else (a.mem (x / 4)).extractLsb' 16 16 ++ v)

/-- Operand of `n` bytes at `x`: on its boundary, and inside a storage of `lim` bytes. -/
def within (lim n : Nat) (x : BitVec 32) : Bool := x.toNat % n == 0 && decide (x.toNat + n ≤ lim)

/-- A store to address `x` is permitted: the protection key of the PSW is zero or the storage
key of the block. -/
def permits (a : Arch) (x : BitVec 32) : Bool :=
  a.key == 0 || a.keys (x.toNat / 2048) == a.key.setWidth 8

/-- The even-odd pair of registers `r`, `r + 1`. -/
def pair (a : Arch) (r : BitVec 4) : BitVec 64 := a.gr r ++ a.gr (r + 1)

/-- A result of 64 bits in the pair. -/
def putPair (a : Arch) (r : BitVec 4) (v : BitVec 64) : Arch :=
  (a.put r (v.extractLsb' 32 32)).put (r + 1) (v.extractLsb' 0 32)

end Arch

/-- Operation code. -/
def opOf (i : BitVec 16) : BitVec 8 := i.extractLsb' 8 8

/-- Digit after the operation code: register or mask. -/
def dig1 (i : BitVec 16) : BitVec 4 := i.extractLsb' 4 4

/-- Second digit after the operation code: register or index register. -/
def dig2 (i : BitVec 16) : BitVec 4 := i.extractLsb' 0 4

/-- The immediate operand. -/
def immOf (i : BitVec 16) : BitVec 8 := i.extractLsb' 0 8

/-- Condition code of an arithmetic result. -/
def ccSign (v : Int) : BitVec 2 := if v = 0 then 0 else if v < 0 then 1 else 2

/-- Condition code of a logical result. -/
def ccZero (v : BitVec 32) : BitVec 2 := if v = 0 then 0 else 1

/-- Condition code of a comparison of numbers. -/
def ccCmp (x y : Int) : BitVec 2 := if x = y then 0 else if x < y then 1 else 2

/-- The fixed point result `v` goes to register `r`. On overflow the condition code is 3, and
with the overflow mask on there is an interruption. -/
def fixed (a : Arch) (r : BitVec 4) (v : Int) : Option Arch :=
  if -2 ^ 31 ≤ v ∧ v < 2 ^ 31 then some ((a.put r (BitVec.ofInt 32 v)).setCC (ccSign v))
  else if a.pm.getLsbD 3 then none
  else some ((a.put r (BitVec.ofInt 32 v)).setCC 3)

/-- Logical addition: the sum and its condition code. -/
def addLogical (a : Arch) (r : BitVec 4) (x y : BitVec 32) : Arch :=
  (a.put r (x + y)).setCC
    (match decide (2 ^ 32 ≤ x.toNat + y.toNat), decide (x + y = 0) with
     | false, true => 0
     | false, false => 1
     | true, true => 2
     | true, false => 3)

/-- Logical subtraction: condition code 1 is a borrow. -/
def subLogical (a : Arch) (r : BitVec 4) (x y : BitVec 32) : Arch :=
  (a.put r (x - y)).setCC (if x = y then 2 else if x.toNat < y.toNat then 1 else 3)

/-- The branch goes to the low 24 bits of `v`. -/
def Arch.jump (a : Arch) (v : BitVec 32) : Arch := { a with ia := v &&& 0xffffff#32 }

/-- The right half of the PSW, as a link: instruction length, condition code, program mask,
address. -/
def link (a : Arch) (ilc : BitVec 2) : BitVec 32 :=
  ilc ++ a.cc ++ a.pm ++ a.ia.extractLsb' 0 24

/-- The left half of the PSW: system mask, protection key, AMWP, interruption code. -/
def psw1 (a : Arch) (code : BitVec 16) : BitVec 32 := a.mask ++ a.key ++ a.amwp ++ code

/-- The copy of the left half of the PSW is up to date, but for the interruption code. -/
def Arch.Kept (a : Arch) : Prop := a.sys.extractLsb' 16 16 = a.mask ++ a.key ++ a.amwp

/-- The PSW is replaced by the two words `v` and `w`. -/
def loadPsw (a : Arch) (v w : BitVec 32) : Arch :=
  { a with mask := v.extractLsb' 24 8, key := v.extractLsb' 20 4, amwp := v.extractLsb' 16 4,
           cc := w.extractLsb' 28 2, pm := w.extractLsb' 24 4, ia := w &&& 0xffffff#32, sys := v }

/-- Interruption: the old PSW is stored at byte address `old`, and the new one is loaded from the
place 64 bytes above. -/
def interrupt (a : Arch) (old : Nat) (code : BitVec 16) (ilc : BitVec 2) : Arch :=
  take ((a.store old (psw1 a code)).store (old + 4) (link a ilc))
where
  /-- The new PSW. -/
  take (b : Arch) : Arch := loadPsw b (b.mem ((old + 64) / 4)) (b.mem ((old + 68) / 4))

/-- Does the mask `m` of a branch on condition select the condition code. -/
def selected (m : BitVec 4) (cc : BitVec 2) : Bool := m.getMsbD cc.toNat

/-- RR instructions; the address of the next instruction is in `a` already. -/
def rr (a : Arch) (op : BitVec 8) (r1 r2 : BitVec 4) : Option Arch :=
  match op.toNat with
  | 0x04 => some { a with pm := (a.gr r1).extractLsb' 24 4, cc := (a.gr r1).extractLsb' 28 2 }
  | 0x05 => some (if r2 = 0 then a.put r1 (link a 1)
                  else (a.put r1 (link a 1)).jump (a.gr r2))
  | 0x06 => some (if r2 = 0 ∨ a.gr r1 = 1 then a.put r1 (a.gr r1 - 1)
                  else (a.put r1 (a.gr r1 - 1)).jump (a.gr r2))
  | 0x07 => some (if r2 = 0 ∨ selected r1 a.cc = false then a else a.jump (a.gr r2))
  | 0x10 => fixed a r1 ((a.gr r2).toInt.natAbs : Int)
  | 0x11 => fixed a r1 (-((a.gr r2).toInt.natAbs : Int))
  | 0x12 => fixed a r1 (a.gr r2).toInt
  | 0x13 => fixed a r1 (-(a.gr r2).toInt)
  | 0x14 => some ((a.put r1 (a.gr r1 &&& a.gr r2)).setCC (ccZero (a.gr r1 &&& a.gr r2)))
  | 0x15 => some (a.setCC (ccCmp (a.gr r1).toNat (a.gr r2).toNat))
  | 0x16 => some ((a.put r1 (a.gr r1 ||| a.gr r2)).setCC (ccZero (a.gr r1 ||| a.gr r2)))
  | 0x17 => some ((a.put r1 (a.gr r1 ^^^ a.gr r2)).setCC (ccZero (a.gr r1 ^^^ a.gr r2)))
  | 0x18 => some (a.put r1 (a.gr r2))
  | 0x19 => some (a.setCC (ccCmp (a.gr r1).toInt (a.gr r2).toInt))
  | 0x1a => fixed a r1 ((a.gr r1).toInt + (a.gr r2).toInt)
  | 0x1b => fixed a r1 ((a.gr r1).toInt - (a.gr r2).toInt)
  | 0x1e => some (addLogical a r1 (a.gr r1) (a.gr r2))
  | 0x1f => some (subLogical a r1 (a.gr r1) (a.gr r2))
  | _ => none

/-- Effective address: index, base and displacement, 24 bits. -/
def ea (a : Arch) (x b : BitVec 4) (d : BitVec 12) : BitVec 32 :=
  ((if x = 0 then 0 else a.gr x) + (if b = 0 then 0 else a.gr b) + d.setWidth 32) &&& 0xffffff

/-- RX instructions with the operand address `x` in a storage of `lim` bytes. -/
def rx (lim : Nat) (a : Arch) (op : BitVec 8) (r1 : BitVec 4) (x : BitVec 32) : Option Arch :=
  match op.toNat with
  | 0x40 => if Arch.within lim 2 x ∧ a.permits x then
              some (a.storeHalf x.toNat ((a.gr r1).extractLsb' 0 16)) else none
  | 0x41 => some (a.put r1 x)
  | 0x42 => if Arch.within lim 1 x ∧ a.permits x then
              some (a.storeByte x.toNat ((a.gr r1).extractLsb' 0 8)) else none
  | 0x43 => if Arch.within lim 1 x then
              some (a.put r1 ((a.gr r1).extractLsb' 8 24 ++ a.byte x.toNat)) else none
  | 0x45 => some ((a.put r1 (link a 2)).jump x)
  | 0x46 => some (if a.gr r1 = 1 then a.put r1 (a.gr r1 - 1)
                  else (a.put r1 (a.gr r1 - 1)).jump x)
  | 0x47 => some (if selected r1 a.cc then a.jump x else a)
  | 0x48 => if Arch.within lim 2 x then
              some (a.put r1 (BitVec.ofInt 32 (a.half x.toNat).toInt)) else none
  | 0x49 => if Arch.within lim 2 x then
              some (a.setCC (ccCmp (a.gr r1).toInt (a.half x.toNat).toInt)) else none
  | 0x4a => if Arch.within lim 2 x then
              fixed a r1 ((a.gr r1).toInt + (a.half x.toNat).toInt) else none
  | 0x4b => if Arch.within lim 2 x then
              fixed a r1 ((a.gr r1).toInt - (a.half x.toNat).toInt) else none
  | 0x50 => if Arch.within lim 4 x ∧ a.permits x then some (a.store x.toNat (a.gr r1)) else none
  | op => if Arch.within lim 4 x then rxWord a op r1 (a.mem (x.toNat / 4)) else none
where
  /-- RX instructions with a word operand `v`. -/
  rxWord (a : Arch) (op : Nat) (r1 : BitVec 4) (v : BitVec 32) : Option Arch :=
    match op with
    | 0x54 => some ((a.put r1 (a.gr r1 &&& v)).setCC (ccZero (a.gr r1 &&& v)))
    | 0x55 => some (a.setCC (ccCmp (a.gr r1).toNat v.toNat))
    | 0x56 => some ((a.put r1 (a.gr r1 ||| v)).setCC (ccZero (a.gr r1 ||| v)))
    | 0x57 => some ((a.put r1 (a.gr r1 ^^^ v)).setCC (ccZero (a.gr r1 ^^^ v)))
    | 0x58 => some (a.put r1 v)
    | 0x59 => some (a.setCC (ccCmp (a.gr r1).toInt v.toInt))
    | 0x5a => fixed a r1 ((a.gr r1).toInt + v.toInt)
    | 0x5b => fixed a r1 ((a.gr r1).toInt - v.toInt)
    | 0x5e => some (addLogical a r1 (a.gr r1) v)
    | 0x5f => some (subLogical a r1 (a.gr r1) v)
    | _ => none

/-- Condition code of TM: the bits selected are all zero, mixed or all ones. -/
def ccTest (v m : BitVec 8) : BitVec 2 := if v &&& m = 0 then 0 else if v &&& m = m then 3 else 1

/-- The byte `v` replaces the one at `x`; the condition code tells whether it is zero. -/
def putLogical (a : Arch) (x : Nat) (v : BitVec 8) : Arch :=
  (a.storeByte x v).setCC (if v = 0 then 0 else 1)

/-- SI instructions with the immediate operand `m` and the operand address `x` in a storage of
`lim` bytes. -/
def si (lim : Nat) (a : Arch) (op m : BitVec 8) (x : BitVec 32) : Option Arch :=
  if Arch.within lim 1 x then
    match op.toNat with
    | 0x91 => some (a.setCC (ccTest (a.byte x.toNat) m))
    | 0x92 => if a.permits x then some (a.storeByte x.toNat m) else none
    | 0x94 => if a.permits x then some (putLogical a x.toNat (a.byte x.toNat &&& m)) else none
    | 0x95 => some (a.setCC (ccCmp (a.byte x.toNat).toNat m.toNat))
    | 0x96 => if a.permits x then some (putLogical a x.toNat (a.byte x.toNat ||| m)) else none
    | 0x97 => if a.permits x then some (putLogical a x.toNat (a.byte x.toNat ^^^ m)) else none
    | _ => none
  else none

/-- BXH and BXLE: the sum of the first and third operands replaces the first and is compared with
the odd one of the registers `r3` and `r3 + 1`; the branch is taken when the sum is higher
(`high`) or not higher. -/
def branchIndex (a : Arch) (r1 r3 : BitVec 4) (x : BitVec 32) (high : Bool) : Arch :=
  if decide ((a.gr (r3 ||| 1)).toInt < (a.gr r1 + a.gr r3).toInt) = high then
    (a.put r1 (a.gr r1 + a.gr r3)).jump x
  else a.put r1 (a.gr r1 + a.gr r3)

/-- RS instructions: branch on index, and shifts, by the low six bits of the operand address
`x`. Shifts of two registers need an even `r1`. -/
def rs (a : Arch) (op : BitVec 8) (r1 r3 : BitVec 4) (x : BitVec 32) : Option Arch :=
  match op.toNat with
  | 0x86 => some (branchIndex a r1 r3 x true)
  | 0x87 => some (branchIndex a r1 r3 x false)
  | 0x88 => some (a.put r1 (a.gr r1 >>> (x.toNat % 64)))
  | 0x89 => some (a.put r1 (a.gr r1 <<< (x.toNat % 64)))
  | 0x8a => some ((a.put r1 (BitVec.ofInt 32 ((a.gr r1).toInt / 2 ^ (x.toNat % 64)))).setCC
      (ccSign ((a.gr r1).toInt / 2 ^ (x.toNat % 64))))
  | 0x8c => if r1.toNat % 2 = 0 then some (a.putPair r1 (a.pair r1 >>> (x.toNat % 64))) else none
  | 0x8d => if r1.toNat % 2 = 0 then some (a.putPair r1 (a.pair r1 <<< (x.toNat % 64))) else none
  | 0x8e => if r1.toNat % 2 = 0 then
      some ((a.putPair r1 (BitVec.ofInt 64 ((a.pair r1).toInt / 2 ^ (x.toNat % 64)))).setCC
        (ccSign ((a.pair r1).toInt / 2 ^ (x.toNat % 64)))) else none
  | _ => none

/-- One instruction, in a storage of `lim` bytes. -/
def step (lim : Nat) (a : Arch) : Option Arch :=
  if (opOf a.inst).toNat < 0x40 then
    rr { a with ia := a.ia + 2 } (opOf a.inst) (dig1 a.inst) (dig2 a.inst)
  else if (opOf a.inst).toNat < 0x80 then
    rx lim { a with ia := a.ia + 4 } (opOf a.inst) (dig1 a.inst)
      (ea a (dig2 a.inst) ((a.half (a.ia.toNat + 2)).extractLsb' 12 4)
        ((a.half (a.ia.toNat + 2)).extractLsb' 0 12))
  else if (opOf a.inst).toNat < 0x90 then
    rs { a with ia := a.ia + 4 } (opOf a.inst) (dig1 a.inst) (dig2 a.inst)
      (ea a 0 ((a.half (a.ia.toNat + 2)).extractLsb' 12 4)
        ((a.half (a.ia.toNat + 2)).extractLsb' 0 12))
  else if (opOf a.inst).toNat < 0xc0 then
    si lim { a with ia := a.ia + 4 } (opOf a.inst) (immOf a.inst)
      (ea a 0 ((a.half (a.ia.toNat + 2)).extractLsb' 12 4)
        ((a.half (a.ia.toNat + 2)).extractLsb' 0 12))
  else none

end Verif.S360
