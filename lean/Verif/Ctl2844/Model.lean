import Verif.Dasd.Model

/-!
# Model of the 2844 disk control unit

`/repo/src/model2844/model2844.c`: `step_2844` (one microinstruction and one step of every
drive, lines 113-806) and `model2844_dev` (the channel interface, lines 809-1023).  The drives
are those of `Verif.Dasd`.  Logging, `print_tags` and the disassembly of microinstructions
(lines 185-297) are dropped.  The fields `sense`, `cmd`, `status`, `data`, `data_rdy`,
`data_end`, `steering`, `chan`, `IS` and the registers `AH` to `BL` are never used and
dropped; `srv_req` is never set, so the one test of it (line 400) is dropped.
-/

namespace Verif.Ctl2844
open Verif.Card (Res)

abbrev B := BitVec 8
abbrev T := BitVec 16

/-- Fields of one word of control storage, `struct ROS_2844`, model2844.h lines 30-47 (the
parity fields and the note are not used by `step_2844`). -/
structure Word where
  ca : Nat
  cb : Nat
  ck : Nat
  cl : Nat
  ch : Nat
  cn : Nat
  cd : Nat
  cv : Nat
  cc : Nat
  cs : Nat
  bp : Nat
deriving DecidableEq, Repr

/-- Result of running a piece of code. -/
inductive Out (α : Type) where
  | ok (a : α)
  /-- access through a null pointer -/
  | null
  /-- access outside the control storage -/
  | oob
  /-- access outside the buffer of a drive -/
  | drive
  /-- a value used that was never set -/
  | undef
deriving DecidableEq, Repr

def Out.bind {α β : Type} (x : Out α) (f : α → Out β) : Out β :=
  match x with
  | .ok a => f a
  | .null => .null
  | .oob => .oob
  | .drive => .drive
  | .undef => .undef

@[simp] theorem Out.bind_ok {α β : Type} (a : α) (f : α → Out β) : (Out.ok a).bind f = f a := rfl
@[simp] theorem Out.bind_null {α β : Type} (f : α → Out β) : (Out.null).bind f = .null := rfl
@[simp] theorem Out.bind_oob {α β : Type} (f : α → Out β) : (Out.oob).bind f = .oob := rfl
@[simp] theorem Out.bind_drive {α β : Type} (f : α → Out β) : (Out.drive).bind f = .drive := rfl
@[simp] theorem Out.bind_undef {α β : Type} (f : α → Out β) : (Out.undef).bind f = .undef := rfl

/-- The drive layer's own outcomes: anything but success is an access outside its buffer. -/
def ofRes {α : Type} : Res α → Out α
  | .ok a => .ok a
  | _ => .drive

/-- `struct _2844_context`, model2844.h lines 55-205.  `unit_num` is masked to three bits by
its only assignment (line 653); `disk` is the array of eight pointers; flags which only hold 0
and 1 are `Bool`. -/
structure Ctx where
  addr : T
  selected : Bool
  request : Bool
  opr_in : Bool
  addressed : Bool
  tr_1 : Bool
  tr_2 : Bool
  srv_in : Bool
  svc_req : Bool
  sta_in : Bool
  tags : T
  index : Bool
  burst_odd : Bool
  Abus : B
  Bbus : B
  Alu : B
  carry : Bool
  d_nzero : Bool
  DR : B
  ST : B
  OP : B
  DW : B
  UR : B
  BX : B
  BY : B
  DH : B
  DL : B
  FR : B
  GL : B
  KL : B
  CX : B
  SP : B
  WH : B
  WL : B
  BC : B
  ER : B
  GP : B
  SC : B
  IG : B
  bus_out : B
  WX : T
  IE : B
  FT : B
  FC : B
  unit : BitVec 3
  disk : BitVec 3 → Option Dasd.S

/-- A bit of a byte, `BIT0` (0x80) to `BIT7` (0x01), device.h lines 32-39. -/
def bit (x : B) (i : Nat) : Bool := x.getLsbD (7 - i)

/-- `x |= BITi`. -/
def setBit (x : B) (i : Nat) : B := x ||| (0x80#8 >>> i)

/-- `x &= ~BITi`. -/
def clrBit (x : B) (i : Nat) : B := x &&& ~~~(0x80#8 >>> i)

/-- `if (v) x |= BITi; else x &= ~BITi`. -/
def putBit (x : B) (i : Nat) (v : Bool) : B := if v then setBit x i else clrBit x i

/-! ## The drives, lines 126-180 -/

/-- `ctx->disk[i] = d`. -/
def setDisk (c : Ctx) (i : BitVec 3) (d : Dasd.S) : Ctx :=
  { c with disk := fun j => if j = i then some d else c.disk j }

/-- The code check bytes, lines 140-147 and 154-161. -/
def burst (c : Ctx) (am : Bool) (data : B) : Ctx :=
  if am = false ∧ c.FT &&& 0x08#8 ≠ 0#8 then
    (if c.burst_odd then { c with BX := c.BX ^^^ data, burst_odd := false }
     else { c with CX := c.CX ^^^ data, burst_odd := true })
  else c

/-- What a transfer left in `data`, `am`, `ix`: lines 136-148 and 151-162, 166-167. -/
def transfer (c : Ctx) (i : BitVec 3) (read : Bool) : Dasd.S × Bool × Dasd.Io → Ctx
  | (d, r, io) =>
    let c := setDisk c i d
    let c := if r then
        burst { c with ST := setBit c.ST 4, DR := if read then BitVec.ofNat 8 io.data else c.DR }
          io.am (BitVec.ofNat 8 io.data)
      else c
    if io.ix then { c with index := true } else c

/-- Two runs of a transfer differ in nothing the caller goes on to use: `am` only matters
after a byte was transferred, with the check bytes on (lines 140 and 154). -/
def agree (check : Bool) (x y : Dasd.S × Bool × Dasd.Io) : Bool :=
  x.1 = y.1 ∧ x.2.1 = y.2.1 ∧ x.2.2.ix = y.2.2.ix ∧
    (x.2.1 = true → x.2.2.data = y.2.2.data ∧ (check = true → x.2.2.am = y.2.2.am))

/-- A transfer whose parameter `am` (and, for a read, `data`) is a local variable nobody has set
(line 133): if the value it happens to hold makes a difference the outcome is `undef`. -/
def unset (check : Bool) (f : Dasd.Io → Res (Dasd.S × Bool × Dasd.Io)) (x y : Dasd.Io) : Out (Dasd.S × Bool × Dasd.Io) :=
  (ofRes (f x)).bind fun a => (ofRes (f y)).bind fun b => if agree check a b then .ok a else .undef

/-- A drive which is selected, lines 132-167. -/
def selDrive (c : Ctx) (i : BitVec 3) (d : Dasd.S) : Out Ctx :=
  if c.FC &&& 0x40#8 ≠ 0#8 then
    (unset (decide (c.FT &&& 0x08#8 ≠ 0#8)) (Dasd.readByte d)
      { data := 0, am := false, ix := false } { data := 1, am := true, ix := false }).bind
      fun r => .ok (transfer c i true r)
  else if c.FC &&& 0x80#8 ≠ 0#8 then
    (unset (decide (c.FT &&& 0x08#8 ≠ 0#8)) (Dasd.writeByte d) { data := c.DR.toNat, am := false, ix := false }
      { data := c.DR.toNat, am := true, ix := false }).bind fun r => .ok (transfer c i false r)
  else .ok (if (Dasd.stepDisk d).2 then { setDisk c i (Dasd.stepDisk d).1 with index := true }
            else setDisk c i (Dasd.stepDisk d).1)

/-- The condition of line 132. -/
def gated (c : Ctx) (i : BitVec 3) : Bool :=
  (c.UR &&& 0x0f#8) = i.setWidth 8 ∧ c.FT &&& 0x81#8 = 0x81#8 ∧ c.FC &&& 0x04#8 ≠ 0#8

/-- Lines 173-179. -/
def attention (c : Ctx) (i : BitVec 3) : Ctx :=
  match c.disk i with
  | none => c
  | some d =>
    if Dasd.checkAttn d then
      { c with SC := c.SC ||| (0x80#8 >>> i.toNat), request := c.request || !c.selected }
    else c

/-- One pass of the loop of lines 128-180. -/
def walkOne (c : Ctx) (i : BitVec 3) : Out Ctx :=
  match c.disk i with
  | none => .ok c
  | some d =>
    (if gated c i then selDrive c i d else .ok (setDisk c i (Dasd.stepDisk d).1)).bind fun c =>
      .ok (attention c i)

/-- The rest of the loop. -/
def walkFrom (c : Ctx) : List (BitVec 3) → Out Ctx
  | [] => .ok c
  | i :: is => (walkOne c i).bind fun c => walkFrom c is

/-- Lines 126-180. -/
def walk (c : Ctx) : Out Ctx := walkFrom { c with SC := 0#8 } [0#3, 1#3, 2#3, 3#3, 4#3, 5#3, 6#3, 7#3]

/-! ## One microinstruction, lines 300-806 -/

/-- The X6 bit, lines 304-363 (case 8 apart). -/
def x6 (c : Ctx) (ch : Nat) : Bool :=
  match ch with
  | 1 => true
  | 2 => bit c.ST 0
  | 3 => bit c.OP 6
  | 4 => bit c.ST 2
  | 5 => bit c.ST 4
  | 6 => bit c.ST 6
  | 7 => true
  | 9 => c.carry
  | 10 => c.tags &&& 0x2000#16 ≠ 0#16
  | 11 => c.tags &&& 0x0800#16 ≠ 0#16
  | 12 => true
  | 13 => bit c.OP 0
  | 14 => bit c.OP 2
  | 15 => bit c.OP 4
  | _ => false

/-- The X7 bit, lines 366-428. -/
def x7 (c : Ctx) (cl : Nat) : Bool :=
  match cl with
  | 1 => true
  | 2 => bit c.ST 3
  | 3 => bit c.ST 5
  | 4 => bit c.ST 7
  | 5 => !c.d_nzero
  | 8 => c.tags &&& 0x1000#16 ≠ 0#16
  | 9 => (c.srv_in && bit c.IG 2) || (c.srv_in && (c.tags &&& 0x1000#16 ≠ 0#16))
  | 10 => c.selected || c.SC ≠ 0#8
  | 11 => bit c.OP 1
  | 12 => bit c.OP 3
  | 13 => bit c.OP 5
  | 14 => bit c.ST 1 && c.index
  | 15 => bit c.OP 7
  | _ => false

/-- Lines 301-363. -/
def nextHi (c : Ctx) (w : Word) : T :=
  let base := (c.WX &&& 0xe00#16) ||| BitVec.ofNat 16 w.cn ||| (BitVec.ofNat 16 w.bp <<< 8)
  if w.ch = 8 then (base &&& 0xfd#16) ||| (BitVec.ofNat 16 (w.ck &&& 0xf) <<< 8)
  else if x6 c w.ch then base ||| 2#16 else base

/-- Lines 301-430. -/
def next (c : Ctx) (w : Word) : T := if x7 c w.cl then nextHi c w ||| 1#16 else nextHi c w

/-- B bus, lines 433-446, and its inversion, lines 574-575. -/
def bBus (c : Ctx) (w : Word) : B :=
  let b := match w.cb with
    | 1 => c.BY
    | 2 => BitVec.ofNat 8 w.ck
    | 3 => c.DR
    | _ => 0#8
  if w.cv ≠ 0 then ~~~b else b

/-- File status, lines 508-515. -/
def fileStatus (c : Ctx) : B :=
  match c.disk c.unit with
  | none => 0#8
  | some d => if c.FT &&& 1#8 ≠ 0#8 then BitVec.ofNat 8 (Dasd.getTags d) else 0#8

/-- Unit status, lines 540-547. -/
def unitStatus (c : Ctx) : B :=
  ((c.addr &&& 0xf0#16).setWidth 8) ||| (if c.SC ≠ 0#8 then 1#8 else 0#8)
    ||| (if (c.disk c.unit).isSome then 4#8 else 0#8) ||| (if c.unit = 0#3 then 8#8 else 0#8)

/-- A bus, lines 450-566. -/
def aBus (c : Ctx) (w : Word) : Out Ctx :=
  match w.ca with
  | 0x00 => .ok { c with Abus := 0#8 }
  | 0x01 => .ok { c with Abus := c.GL }
  | 0x02 => .ok { c with Abus := c.BY }
  | 0x03 => .ok { c with Abus := c.bus_out, tr_1 := true }
  | 0x04 => .ok { c with Abus := c.FR }
  | 0x05 => .ok { c with Abus := c.KL }
  | 0x06 => .ok { c with Abus := c.DL }
  | 0x07 => .ok { c with Abus := c.DH }
  | 0x08 => .ok { c with Abus := c.OP }
  | 0x09 => .ok { c with Abus := c.GP }
  | 0x0A => .ok { c with Abus := c.SP }
  | 0x0B => .ok { c with Abus := c.DW }
  | 0x0C => .ok { c with Abus := c.WH }
  | 0x0D => .ok { c with Abus := c.WL }
  | 0x0F => .ok { c with Abus := c.BC }
  | 0x10 => .ok { c with Abus := 0#8 }
  | 0x11 => .ok { c with Abus := c.SC }
  | 0x12 => .ok { c with Abus := fileStatus c }
  | 0x13 => .ok { c with Abus := c.BX }
  | 0x14 => .ok { c with Abus := c.DR, tr_1 := c.tr_1 || bit c.IG 2 }
  | 0x15 => .ok { c with Abus := c.ER, srv_in := false }
  | 0x16 => .ok { c with Abus := c.IE &&& 0x1e#8 }
  | 0x17 =>
    match c.disk c.unit with
    | none => .null
    | some d => .ok { c with Abus := BitVec.ofNat 8 (Dasd.curCyl d) }
  | 0x18 => .ok { c with Abus := c.CX }
  | 0x19 => .ok { c with Abus := unitStatus c }
  | 0x1A => .ok { c with Abus := c.UR }
  | 0x1B => .ok { c with Abus := ((0x100#16 >>> c.unit.toNat) &&& 0xff#16).setWidth 8 }
  | _ => .ok c

/-- Carry in, lines 578-593. -/
def carryIn (c : Ctx) (cc : Nat) : B :=
  match cc with
  | 6 => if bit c.ST 3 then 1#8 else 0#8
  | 1 => 1#8
  | 5 => 1#8
  | _ => 0#8

/-- The adder, lines 596-616. -/
def alu (c : Ctx) (cc : Nat) : B :=
  match cc with
  | 2 => c.Abus &&& c.Bbus
  | 3 => c.Abus ||| c.Bbus
  | 7 => c.Abus ^^^ c.Bbus
  | _ => c.Abus + c.Bbus + carryIn c cc

/-- The carry out, lines 605 and 619. -/
def carryOut (c : Ctx) (cc : Nat) (sum : B) : Bool :=
  match cc with
  | 2 => false
  | 3 => false
  | 7 => false
  | _ => ((c.Abus &&& c.Bbus) ||| ((c.Abus ^^^ c.Bbus) &&& ~~~sum)).getLsbD 7

/-- `dasd_settags(ctx->disk[ctx->unit_num], ctx->FT, ctx->FC)`, dasd.c lines 294-403.  With the
select tag, any of the four function tags makes it reach through the pointer (logging off). -/
def driveTags (c : Ctx) : Out Ctx :=
  match c.disk c.unit with
  | none => if c.FT &&& 1#8 ≠ 0#8 ∧ c.FT &&& 0xf0#8 ≠ 0#8 then .null else .ok c
  | some d => (ofRes (Dasd.setTags d c.FT.toNat c.FC.toNat)).bind fun d => .ok (setDisk c c.unit d)

/-- `FT`/`FC` cleared and, on the word's choice, set by the adder output, lines 663-665 and
671-673. -/
def gateReg (r a : B) (cn : Nat) : B := if cn &&& 4 ≠ 0 then (r &&& ~~~a) ||| a else r &&& ~~~a

/-- Destination, lines 622-727. -/
def dest (c : Ctx) (w : Word) : Out Ctx :=
  match w.cd with
  | 1 => .ok { c with GL := c.Alu }
  | 2 => .ok { c with BY := c.Alu }
  | 4 => .ok { c with FR := c.Alu }
  | 5 => .ok { c with KL := c.Alu }
  | 6 => .ok { c with DL := c.Alu }
  | 7 => .ok { c with DH := c.Alu }
  | 8 => .ok { c with OP := c.Alu }
  | 9 => .ok { c with GP := c.Alu }
  | 10 => .ok { c with UR := c.Alu, unit := c.Alu.setWidth 3 }
  | 11 => .ok { c with DW := c.Alu }
  | 12 => .ok { c with DR := c.Alu }
  | 13 => driveTags { c with FT := gateReg c.FT c.Alu w.cn, burst_odd := (gateReg c.FT c.Alu w.cn) &&& 2#8 ≠ 0#8 }
  | 14 => driveTags { c with FC := gateReg c.FC c.Alu w.cn }
  | 15 => .ok { c with IG := c.Alu, svc_req := c.svc_req || (bit c.Alu 0 && (!c.srv_in || c.tr_1)) }
  | 0x12 => .ok { c with WH := c.Alu }
  | 0x13 => .ok { c with WL := c.Alu }
  | 0x18 => .ok { c with CX := c.Alu }
  | 0x19 => .ok { c with BX := c.Alu }
  | 0x1A => .ok { c with SP := c.Alu }
  | 0x1C => .ok { c with IE := c.Alu }
  | _ => .ok c

/-- The carry kept in `ST`, lines 730-745. -/
def keepCarry (c : Ctx) (cc : Nat) : Ctx :=
  match cc with
  | 4 => { c with ST := putBit c.ST 3 c.carry }
  | 5 => { c with ST := putBit c.ST 3 c.carry }
  | 6 => { c with ST := putBit c.ST 3 c.carry }
  | _ => c

/-- Static flags, lines 748-798. -/
def flags (c : Ctx) (cs : Nat) : Ctx :=
  match cs with
  | 1 => { c with ST := clrBit c.ST 4 }
  | 2 => { c with ST := clrBit c.ST 1 }
  | 3 => { c with ST := setBit c.ST 1, index := false }
  | 4 => { c with ST := clrBit c.ST 0 }
  | 5 => { c with ST := setBit c.ST 0 }
  | 6 => { c with ST := clrBit c.ST 5 }
  | 7 => { c with ST := setBit c.ST 5 }
  | 8 => { c with ST := clrBit c.ST 2 }
  | 9 => if c.d_nzero then { c with ST := setBit c.ST 2 } else c
  | 10 => { c with ST := clrBit c.ST 3 }
  | 11 => { c with ST := setBit c.ST 3 }
  | 12 => { c with ST := clrBit c.ST 6 }
  | 13 => { c with ST := setBit c.ST 6 }
  | 14 => { c with ST := clrBit c.ST 7 }
  | 15 => { c with ST := setBit c.ST 7 }
  | _ => c

/-- Lines 568-619: the branch on the A bus, and the adder. -/
def compute (c : Ctx) (w : Word) (n : T) : Ctx :=
  let c := { c with WX := if w.cl = 6 then (n &&& 0xf00#16) ||| c.Abus.setWidth 16 else n }
  let s := alu c w.cc
  { c with Alu := s, d_nzero := s ≠ 0#8, carry := carryOut c w.cc s }

/-- One microinstruction, lines 300-798. -/
def exec (w : Word) (c : Ctx) : Out Ctx :=
  (aBus { c with WX := next c w, Bbus := bBus c w } w).bind fun c' =>
  (dest (compute c' w (next c w)) w).bind fun c =>
  .ok (flags (keepCarry c w.cc) w.cs)

/-- `step_2844`, lines 113-806, with the control storage `ros`.  `ros_2844` has 4096 words. -/
def step (ros : Nat → Word) (c : Ctx) : Out Ctx :=
  (walk c).bind fun c' => if c'.WX.toNat < 4096 then exec (ros c'.WX.toNat) c' else .oob

/-! ## The channel interface, lines 809-1023 -/

def SEL_OUT : T := 0x8000#16
def ADR_OUT : T := 0x4000#16
def CMD_OUT : T := 0x2000#16
def SRV_OUT : T := 0x1000#16
def SUP_OUT : T := 0x0800#16
def HLD_OUT : T := 0x0400#16
def OPR_OUT : T := 0x0200#16
def OPR_IN : T := 0x0080#16
def ADR_IN : T := 0x0040#16
def STA_IN : T := 0x0020#16
def SRV_IN : T := 0x0010#16
def REQ_IN : T := 0x0008#16

/-- A tag is up. -/
def up (t m : T) : Bool := t &&& m ≠ 0#16

/-- Number of ones in a byte is odd. -/
def odd (x : B) : Bool :=
  (x.getLsbD 0 ^^ x.getLsbD 1 ^^ x.getLsbD 2 ^^ x.getLsbD 3) ^^ (x.getLsbD 4 ^^ x.getLsbD 5 ^^ x.getLsbD 6 ^^ x.getLsbD 7)

/-- `x | odd_parity[x]`, xlat.c line 100: the table holds 0x100 for the bytes with an even
number of ones (`Verif.Tables` proves this of the table). -/
def withParity (x : B) : T := if odd x then x.setWidth 16 else x.setWidth 16 ||| 0x100#16

/-- `((bus_out ^ odd_parity[bus_out & 0xff]) & 0x100) == 0`. -/
def parityOk (bo : T) : Bool := bo.getLsbD 8 = !odd (bo.setWidth 8)

/-- The control unit and the lines it drives. -/
structure IF where
  c : Ctx
  tags : T
  bin : T

/-- Line 837-838: the address on the bus is taken for one of this control unit. -/
def takes (c : Ctx) (bo : T) : Bool := (bo &&& 0xf0#16) = c.addr || parityOk bo

/-- Address out, lines 836-861. -/
def ifAddr (bo : T) (s : IF) : IF :=
  if up s.tags ADR_OUT then
    if takes s.c bo then
      if bit s.c.IG 5 then
        { s with
          bin := 0x150#16, tags := (s.tags ||| STA_IN) &&& ~~~SEL_OUT,
          c := { s.c with sta_in := true, addressed := false, ER := setBit s.c.ER 3 } }
      else { s with c := { s.c with addressed := true, ER := setBit s.c.ER 1 } }
    else { s with c := { s.c with addressed := false } }
  else
    { s with
      tags := if bit s.c.IG 5 then s.tags &&& ~~~STA_IN else s.tags,
      c := { s.c with ER := clrBit s.c.ER 1 } }

/-- Operational in dropped by the microprogram, lines 864-869. -/
def ifDrop (s : IF) : IF :=
  if bit s.c.IG 1 then
    { s with c := { s.c with opr_in := false, IG := clrBit s.c.IG 1 }, tags := s.tags &&& ~~~OPR_IN }
  else s

/-- Status in dropped, lines 872-875. -/
def ifSta (s : IF) : IF :=
  if bit s.c.IG 5 = false ∧ s.c.sta_in then
    { s with tags := s.tags &&& ~~~STA_IN, c := { s.c with sta_in := false } }
  else s

/-- Lines 878-884. -/
def ifSel (s : IF) : IF := { s with c := { s.c with selected := up s.tags SEL_OUT && s.c.addressed } }

/-- Address in, lines 886-896. -/
def ifAdrIn (s : IF) : IF :=
  if s.c.addressed then
    if bit s.c.IG 7 then
      { s with
        tags := s.tags ||| ADR_IN, bin := withParity s.c.DW, c := { s.c with opr_in := true, tr_1 := false } }
    else { s with tags := s.tags &&& ~~~ADR_IN }
  else s

/-- Lines 898-913. -/
def ifStaIn (s : IF) : IF :=
  if s.c.opr_in then
    let s := if bit s.c.IG 7 = false then { s with tags := s.tags &&& ~~~ADR_IN } else s
    if bit s.c.IG 5 then
      { s with tags := s.tags ||| STA_IN, bin := withParity s.c.DW, c := { s.c with sta_in := true } }
    else { s with tags := s.tags &&& ~~~STA_IN, c := { s.c with sta_in := false } }
  else s

/-- Lines 916-920. -/
def ifOprIn (s : IF) : IF :=
  if s.c.opr_in then { s with tags := s.tags ||| OPR_IN, c := { s.c with ER := clrBit s.c.ER 3 } } else s

/-- Lines 923-936. -/
def ifReq (s : IF) : IF :=
  let s := if s.c.selected = false ∧ s.c.request then { s with tags := s.tags ||| REQ_IN } else s
  if s.c.request ∧ up s.tags REQ_IN ∧ up s.tags SEL_OUT then
    { s with
      tags := (s.tags &&& ~~~REQ_IN) ||| OPR_IN,
      c := { s.c with request := false, addressed := true, selected := true } }
  else s

/-- Lines 939-953. -/
def ifPoll (s : IF) : IF :=
  if s.c.selected = false then
    let r := s.c.request || (bit s.c.IG 3 || bit s.c.IG 6) || (bit s.c.IG 4 && s.c.SC ≠ 0#8)
    { s with c := { s.c with request := r }, tags := if r then s.tags ||| REQ_IN else s.tags }
  else s

/-- Lines 956-974. -/
def ifEnd (s : IF) : IF :=
  if s.c.selected = false ∧ bit s.c.IG 5 then
    let s := if up s.tags SEL_OUT && !up s.tags ADR_OUT && up s.tags REQ_IN then
        { s with
          tags := (s.tags &&& ~~~(SEL_OUT ||| REQ_IN)) ||| (OPR_IN ||| ADR_IN), bin := withParity s.c.DW,
          c := { s.c with tr_1 := false, tr_2 := false } }
      else s
    if up s.tags STA_IN && up s.tags SRV_OUT then { s with c := { s.c with ER := clrBit s.c.ER 7 } } else s
  else s

/-- Data transfer, lines 977-1022. -/
def ifData (bo : T) (s : IF) : IF :=
  if s.c.selected then
    let s := { s with
      tags := s.tags &&& ~~~SEL_OUT,
      c := { s.c with ER := putBit s.c.ER 2 (!parityOk bo), tr_2 := s.c.svc_req,
                      svc_req := s.c.svc_req && !s.c.srv_in } }
    let s := if (bit s.c.IG 2 && s.c.tr_1) || (bit s.c.IG 0 && (!s.c.srv_in || s.c.tr_1)) then
        { s with c := { s.c with svc_req := true } } else s
    let s := if s.c.tr_2 && !s.c.srv_in then
        { s with c := { s.c with srv_in := true }, tags := s.tags ||| SRV_IN, bin := withParity s.c.DW } else s
    let s := if (s.c.tr_1 && !bit s.c.IG 2) || (bit s.c.IG 2 && up s.tags SRV_OUT && !s.c.tr_2)
          || (!bit s.c.IG 2 && up s.tags CMD_OUT && s.c.srv_in) then
        { s with c := { s.c with srv_in := false }, tags := s.tags &&& ~~~SRV_IN } else s
    { s with c := { s.c with tr_1 := false } }
  else s

/-- `model2844_dev`, lines 809-1023. -/
def dev (bo : T) (s : IF) : IF :=
  if s.tags &&& (OPR_OUT ||| SUP_OUT) = 0#16 then
    { s with
      tags := if s.c.selected then s.tags &&& ~~~(OPR_IN ||| ADR_IN ||| SRV_IN ||| STA_IN) else s.tags,
      c := { s.c with sta_in := s.c.sta_in && !s.c.selected, selected := false, WX := 0#16 } }
  else
    ifData bo (ifEnd (ifPoll (ifReq (ifOprIn (ifStaIn (ifAdrIn (ifSel (ifSta (ifDrop (ifAddr bo
      { s with c := { s.c with bus_out := bo.setWidth 8, tags := s.tags } }))))))))))

/-- `model2844_init(addr)`, lines 73-111: everything zero but the address. -/
def init (addr : T) : Ctx :=
  { addr := addr, selected := false, request := false, opr_in := false, addressed := false, tr_1 := false,
    tr_2 := false, srv_in := false, svc_req := false, sta_in := false, tags := 0#16, index := false,
    burst_odd := false, Abus := 0#8, Bbus := 0#8, Alu := 0#8, carry := false, d_nzero := false, DR := 0#8, ST := 0#8,
    OP := 0#8, DW := 0#8, UR := 0#8, BX := 0#8, BY := 0#8, DH := 0#8, DL := 0#8, FR := 0#8, GL := 0#8, KL := 0#8,
    CX := 0#8, SP := 0#8, WH := 0#8, WL := 0#8, BC := 0#8, ER := 0#8, GP := 0#8, SC := 0#8, IG := 0#8, bus_out := 0#8,
    WX := 0#16, IE := 0#8, FT := 0#8, FC := 0#8, unit := 0#3, disk := fun _ => none }

end Verif.Ctl2844
