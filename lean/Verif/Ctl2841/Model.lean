import Verif.Ctl2844.Model

/-!
# Model of the 2841 disk control unit

`/repo/src/model2841/model2841.c`: `step_2841` (one microinstruction and one step of every
drive, lines 87-768) and `model2841_dev` (the channel interface, lines 772-992).  The drives
are those of `Verif.Dasd`; outcomes, bytes, bits, tags and parity are those of
`Verif.Ctl2844.Model`.  Logging, `print_tags` and the disassembly of microinstructions are
dropped, and so are the fields of `struct _2841_context` which the two functions never use;
`srv_req` is never set, so the one test of it (line 379) is dropped.
-/

namespace Verif.Ctl2841
open Verif.Card (Res)
open Verif.Ctl2844 (B T Word Out ofRes bit setBit clrBit putBit up odd withParity parityOk
  SEL_OUT ADR_OUT CMD_OUT SRV_OUT SUP_OUT HLD_OUT OPR_OUT OPR_IN ADR_IN STA_IN SRV_IN REQ_IN gateReg unset)

/-- `struct _2841_context`, model2841.h lines 56-175.  `disk` is the array of eight pointers,
`cur` the number of the drive `cur_disk` points to; flags which only hold 0 and 1 are `Bool`. -/
structure Ctx where
  addr : T
  selected : Bool
  request : Bool
  opr_in : Bool
  addressed : Bool
  tr_1 : Bool
  tr_2 : Bool
  srv_in : Bool
  svc_req : Bool
  sta_in : Bool
  tags : T
  index : Bool
  Abus : B
  Bbus : B
  Alu : B
  carry : Bool
  d_nzero : Bool
  DR : B
  ST : B
  OP : B
  DW : B
  UR : B
  BX : B
  BY : B
  DH : B
  DL : B
  FR : B
  GL : B
  KL : B
  ER : B
  GP : B
  SC : B
  IG : B
  bus_out : B
  WX : T
  FT : B
  FC : B
  cur : Option (BitVec 3)
  disk : BitVec 3 → Option Dasd.S

/-- `*ctx->cur_disk`. -/
def Ctx.drive (c : Ctx) : Option Dasd.S := c.cur.bind c.disk

/-- `ctx->cur_disk->type`, the row of `disk_type[]` (dasd.c 152-160): 0 for a 2303, 1 for a 2311,
2 for a 2302, 3 for a 2314. -/
def typeNo (d : Dasd.S) : Nat :=
  if d.ty.dev = 0x03 then 0 else if d.ty.dev = 0x11 then 1 else if d.ty.dev = 0x02 then 2 else 3

/-! ## The drives, lines 101-140 -/

/-- `ctx->disk[i] = d`. -/
def setDisk (c : Ctx) (i : BitVec 3) (d : Dasd.S) : Ctx :=
  { c with disk := fun j => if j = i then some d else c.disk j }

/-- What a transfer left: lines 112-116 and 120-123, then 127-129. -/
def transfer (c : Ctx) (i : BitVec 3) (read : Bool) (r : Dasd.S × Bool × Dasd.Io) : Ctx :=
  { c with
    disk := fun j => if j = i then some r.1 else c.disk j
    ST := if r.2.1 then setBit c.ST 4 else c.ST
    DR := if r.2.1 && read then BitVec.ofNat 8 r.2.2.data else c.DR
    index := c.index || (bit (if r.2.1 then setBit c.ST 4 else c.ST) 1 && r.2.2.ix) }

/-- A drive which is selected, lines 107-129.  For a read `am` is a local variable nobody has set;
for a write it is `FC & 1`. -/
def selDrive (c : Ctx) (i : BitVec 3) (d : Dasd.S) : Out Ctx :=
  if c.FC &&& 0x40#8 ≠ 0#8 then
    (unset false (Dasd.readByte d)
      { data := 0, am := false, ix := false } { data := 0, am := true, ix := false }).bind
      fun r => .ok (transfer c i true r)
  else if c.FC &&& 0x80#8 ≠ 0#8 then
    (ofRes (Dasd.writeByte d { data := c.DR.toNat, am := c.FC.getLsbD 0, ix := false })).bind
      fun r => .ok (transfer c i false r)
  else .ok { setDisk c i (Dasd.stepDisk d).1 with index := c.index || (bit c.ST 1 && (Dasd.stepDisk d).2) }

/-- The condition of line 107. -/
def gated (c : Ctx) (i : BitVec 3) : Bool :=
  bit c.UR i.toNat ∧ c.FT &&& 0x81#8 = 0x81#8 ∧ c.FC &&& 0x04#8 ≠ 0#8

/-- Lines 135-139. -/
def attention (c : Ctx) (i : BitVec 3) : Ctx :=
  match c.disk i with
  | none => c
  | some d => if Dasd.checkAttn d then { c with SC := setBit c.SC i.toNat } else c

/-- One pass of the loop of lines 103-140. -/
def walkOne (c : Ctx) (i : BitVec 3) : Out Ctx :=
  match c.disk i with
  | none => .ok c
  | some d =>
    (if gated c i then selDrive c i d else .ok (setDisk c i (Dasd.stepDisk d).1)).bind fun c =>
      .ok (attention c i)

/-- The rest of the loop. -/
def walkFrom (c : Ctx) : List (BitVec 3) → Out Ctx
  | [] => .ok c
  | i :: is => (walkOne c i).bind fun c => walkFrom c is

/-- Lines 101-140. -/
def walk (c : Ctx) : Out Ctx := walkFrom { c with SC := 0#8 } [0#3, 1#3, 2#3, 3#3, 4#3, 5#3, 6#3, 7#3]

/-! ## One microinstruction, lines 261-761 -/

/-- Lines 291-303: the drive is a 2303 or of no known type. -/
def typ0 (c : Ctx) : Bool :=
  match c.drive with
  | none => false
  | some d => typeNo d = 0 ∨ typeNo d = 3

/-- Lines 360-373: the drive is a 2311 or of no known type. -/
def typ1 (c : Ctx) : Bool :=
  match c.drive with
  | none => false
  | some d => typeNo d = 1 ∨ typeNo d = 3

/-- The X6 bit, lines 264-333 (case 8 apart). -/
def x6 (c : Ctx) (ch : Nat) : Bool :=
  match ch with
  | 1 => true
  | 2 => bit c.ST 0
  | 3 => bit c.OP 6
  | 4 => bit c.ST 2
  | 5 => bit c.ST 4
  | 6 => bit c.ST 6
  | 7 => typ0 c
  | 9 => c.carry
  | 10 => up c.tags CMD_OUT || bit c.ER 7
  | 11 => up c.tags SUP_OUT
  | 13 => bit c.OP 0
  | 14 => bit c.OP 2
  | 15 => bit c.OP 4
  | _ => false

/-- The X7 bit, lines 335-410 (case 6 apart). -/
def x7 (c : Ctx) (cl : Nat) : Bool :=
  match cl with
  | 1 => true
  | 2 => bit c.ST 3
  | 3 => bit c.ST 5
  | 4 => bit c.ST 7
  | 5 => !c.d_nzero
  | 7 => typ1 c
  | 8 => up c.tags SRV_OUT
  | 9 => (c.srv_in && bit c.IG 2) || (c.srv_in && up c.tags SRV_OUT)
  | 10 => c.selected
  | 11 => bit c.OP 1
  | 12 => bit c.OP 3
  | 13 => bit c.OP 5
  | 14 => c.index
  | 15 => bit c.OP 7
  | _ => false

/-- Lines 261-333. -/
def nextHi (c : Ctx) (w : Word) : T :=
  if w.ch = 8 then (((c.WX &&& 0xf00#16) ||| BitVec.ofNat 16 w.cn) &&& 0xff#16) ||| (BitVec.ofNat 16 (w.ck &&& 0xf) <<< 8)
  else if x6 c w.ch then ((c.WX &&& 0xf00#16) ||| BitVec.ofNat 16 w.cn) ||| 2#16
  else (c.WX &&& 0xf00#16) ||| BitVec.ofNat 16 w.cn

/-- Lines 261-410. -/
def next (c : Ctx) (w : Word) : T := if x7 c w.cl then nextHi c w ||| 1#16 else nextHi c w

/-- B bus, lines 412-426, and its inversion, lines 556-557. -/
def bBus (c : Ctx) (w : Word) : B :=
  let b := match w.cb with
    | 1 => c.BY
    | 2 => BitVec.ofNat 8 w.ck
    | 3 => c.DR
    | _ => 0#8
  if w.cv ≠ 0 then ~~~b else b

/-- The drive's answer to its interface tags, lines 489-510. -/
def ieReg (c : Ctx) : B :=
  match c.drive with
  | none => 0#8
  | some d =>
    match typeNo d with
    | 0 => if bit c.FT 6 then 0x12#8 else 0#8
    | 1 => if bit c.FT 7 then 0x01#8 else 0#8
    | 2 => if bit c.FT 5 then 0x04#8 else 0#8
    | _ => 0#8

/-- Drive status, lines 526-532. -/
def fsReg (c : Ctx) : B :=
  match c.drive with
  | none => 0#8
  | some d => BitVec.ofNat 8 (Dasd.getTags d)

/-- Lines 539-547. -/
def isReg (c : Ctx) : B := if fsReg c &&& 0xc0#8 = 0xc0#8 then 0x30#8 else fsReg c

/-- A bus, lines 429-548.  The stop code leaves it as it is, and so does the cylinder without a
drive. -/
def aBus (c : Ctx) (w : Word) : Ctx :=
  match w.ca with
  | 0x01 => { c with Abus := c.GL }
  | 0x02 => { c with Abus := c.BY }
  | 0x03 => { c with Abus := c.BX }
  | 0x04 => { c with Abus := c.FR }
  | 0x05 => { c with Abus := c.KL }
  | 0x06 => { c with Abus := c.DL }
  | 0x07 => { c with Abus := c.DH }
  | 0x08 => { c with Abus := c.OP }
  | 0x09 => { c with Abus := c.GP }
  | 0x0A => { c with Abus := c.UR }
  | 0x0B => { c with Abus := c.DW }
  | 0x0C => { c with Abus := c.DR, tr_1 := c.tr_1 || bit c.IG 2 }
  | 0x0D => { c with Abus := c.ER, srv_in := false }
  | 0x0E => { c with Abus := ieReg c }
  | 0x0F => { c with Abus := c.bus_out, tr_1 := true }
  | 0x11 => c
  | 0x1C => { c with Abus := c.SC }
  | 0x1D => { c with Abus := fsReg c }
  | 0x1E =>
    match c.drive with
    | none => c
    | some d => { c with Abus := BitVec.ofNat 8 (Dasd.curCyl d) }
  | 0x1F => { c with Abus := isReg c }
  | _ => { c with Abus := 0#8 }

/-- Carry in, lines 559-575. -/
def carryIn (c : Ctx) (cc : Nat) : B :=
  match cc with
  | 6 => if bit c.ST 3 then 1#8 else 0#8
  | 1 => 1#8
  | 5 => 1#8
  | _ => 0#8

/-- The adder, lines 577-599. -/
def alu (c : Ctx) (cc : Nat) : B :=
  match cc with
  | 2 => c.Abus &&& c.Bbus
  | 3 => c.Abus ||| c.Bbus
  | 7 => c.Abus ^^^ c.Bbus
  | _ => c.Abus + c.Bbus + carryIn c cc

/-- The carry out, lines 588 and 602. -/
def carryOut (c : Ctx) (cc : Nat) (sum : B) : Bool :=
  match cc with
  | 2 => false
  | 3 => false
  | 7 => false
  | _ => ((c.Abus &&& c.Bbus) ||| ((c.Abus ^^^ c.Bbus) &&& ~~~sum)).getLsbD 7

/-- `dasd_settags(ctx->cur_disk, ctx->FT, ctx->FC)` unless there is no current drive. -/
def driveTags (c : Ctx) : Out Ctx :=
  match c.cur with
  | none => .ok c
  | some i =>
    match c.disk i with
    | none => .null
    | some d => (ofRes (Dasd.setTags d c.FT.toNat c.FC.toNat)).bind fun d => .ok (setDisk c i d)

/-- `dasd_update(ctx->cur_disk)` when the gates are opened, lines 666-669. -/
def driveUpdate (c : Ctx) : Out Ctx :=
  match c.cur with
  | none => .ok c
  | some i =>
    match c.disk i with
    | none => .null
    | some d =>
      if c.FT = 0x81#8 ∧ c.FC &&& 0xc0#8 ≠ 0#8 then
        (ofRes (Dasd.update d)).bind fun d => .ok (setDisk c i d)
      else .ok c

/-- The first of the eight bits which is on. -/
def firstBit (x : B) : Option (BitVec 3) :=
  if bit x 0 then some 0#3 else if bit x 1 then some 1#3 else if bit x 2 then some 2#3 else if bit x 3 then some 3#3
  else if bit x 4 then some 4#3 else if bit x 5 then some 5#3 else if bit x 6 then some 6#3
  else if bit x 7 then some 7#3 else none

/-- `cur_disk` after lines 642-649. -/
def curOf (c : Ctx) (x : B) : Option (BitVec 3) :=
  match firstBit x with
  | none => none
  | some i => if (c.disk i).isSome then some i else none

/-- Destination, lines 609-687. -/
def dest (c : Ctx) (w : Word) : Out Ctx :=
  match w.cd with
  | 1 => .ok { c with GL := c.Alu }
  | 2 => .ok { c with BY := c.Alu }
  | 3 => .ok { c with BX := c.Alu }
  | 4 => .ok { c with FR := c.Alu }
  | 5 => .ok { c with KL := c.Alu }
  | 6 => .ok { c with DL := c.Alu }
  | 7 => .ok { c with DH := c.Alu }
  | 8 => .ok { c with OP := c.Alu }
  | 9 => .ok { c with GP := c.Alu }
  | 10 => .ok { c with UR := c.Alu, cur := curOf c c.Alu }
  | 11 => .ok { c with DW := c.Alu }
  | 12 => .ok { c with DR := c.Alu }
  | 13 => (driveTags { c with FT := gateReg c.FT c.Alu w.cn }).bind driveUpdate
  | 14 => driveTags { c with FC := gateReg c.FC c.Alu w.cn }
  | 15 => .ok { c with IG := c.Alu, svc_req := c.svc_req || (bit c.Alu 0 && !c.srv_in) }
  | _ => .ok c

/-- The carry kept in `ST`, lines 690-705. -/
def keepCarry (c : Ctx) (cc : Nat) : Ctx :=
  match cc with
  | 4 => { c with ST := putBit c.ST 3 c.carry }
  | 5 => { c with ST := putBit c.ST 3 c.carry }
  | 6 => { c with ST := putBit c.ST 3 c.carry }
  | _ => c

/-- Static flags, lines 708-759. -/
def flags (c : Ctx) (cs : Nat) : Ctx :=
  match cs with
  | 1 => { c with ST := clrBit c.ST 0 }
  | 2 => { c with ST := setBit c.ST 0 }
  | 3 => { c with ST := clrBit c.ST 1, index := false }
  | 4 => { c with ST := setBit c.ST 1 }
  | 5 => { c with ST := clrBit c.ST 2 }
  | 6 => if c.d_nzero then { c with ST := setBit c.ST 2 } else c
  | 7 => { c with ST := clrBit c.ST 3 }
  | 8 => { c with ST := setBit c.ST 3 }
  | 9 => { c with ST := clrBit c.ST 4 }
  | 10 => { c with ST := clrBit c.ST 5 }
  | 11 => { c with ST := setBit c.ST 5 }
  | 12 => { c with ST := clrBit c.ST 6 }
  | 13 => { c with ST := setBit c.ST 6 }
  | 14 => { c with ST := clrBit c.ST 7 }
  | 15 => { c with ST := setBit c.ST 7 }
  | _ => c

/-- Lines 550-607: the branch on the A bus, the adder and its bypass. -/
def compute (c : Ctx) (w : Word) (n : T) : Ctx :=
  { c with
    WX := if w.cl = 6 then (n &&& 0xf00#16) ||| c.Abus.setWidth 16 else n
    Alu := if w.bp ≠ 0 then c.Abus else alu c w.cc
    d_nzero := alu c w.cc ≠ 0#8
    carry := carryOut c w.cc (alu c w.cc) }

/-- One microinstruction, lines 261-761. -/
def exec (w : Word) (c : Ctx) : Out Ctx :=
  (dest (compute (aBus { c with Bbus := bBus c w } w) w (next c w)) w).bind fun c =>
  .ok (flags (keepCarry c w.cc) w.cs)

/-- `step_2841`, lines 87-769, with the control storage `ros`.  `ros_2841` has 4096 words. -/
def step (ros : Nat → Word) (c : Ctx) : Out Ctx :=
  (walk c).bind fun c' => if c'.WX.toNat < 4096 then exec (ros c'.WX.toNat) c' else .oob

/-! ## The channel interface, lines 772-992 -/

/-- The control unit and the lines it drives. -/
structure IF where
  c : Ctx
  tags : T
  bin : T

/-- Lines 798-801. -/
def ifAsk (s : IF) : IF := if bit s.c.IG 3 then { s with c := { s.c with request := true } } else s

/-- Address in, lines 803-812. -/
def ifAdrIn (s : IF) : IF :=
  if bit s.c.IG 7 then
    { s with
      tags := s.tags ||| ADR_IN, bin := withParity s.c.DW,
      c := { s.c with opr_in := true, tr_1 := false, addressed := true } }
  else { s with tags := s.tags &&& ~~~ADR_IN }

/-- Status in dropped, lines 814-818. -/
def ifSta (s : IF) : IF :=
  if bit s.c.IG 5 = false ∧ s.c.sta_in then
    { s with tags := s.tags &&& ~~~STA_IN, c := { s.c with sta_in := false } }
  else s

/-- Lines 820-827. -/
def ifSel (s : IF) : IF := { s with c := { s.c with selected := up s.tags SEL_OUT && s.c.addressed } }

/-- Address out, lines 829-858. -/
def ifAddr (bo : T) (s : IF) : IF :=
  if up s.tags ADR_OUT then
    let s := if (bo &&& 0xf0#16) = s.c.addr then
        if bit s.c.IG 5 then
          { s with
            bin := 0x150#16, tags := (s.tags ||| STA_IN) &&& ~~~SEL_OUT,
            c := { s.c with sta_in := true, ER := s.c.ER ||| 0x11#8 } }
        else { s with c := { s.c with addressed := true, ER := setBit s.c.ER 1 } }
      else { s with c := { s.c with addressed := false } }
    if parityOk bo then s else { s with c := { s.c with ER := setBit s.c.ER 2 } }
  else
    { s with
      tags := if bit s.c.IG 5 then s.tags &&& ~~~STA_IN else s.tags,
      c := { s.c with ER := clrBit s.c.ER 1 } }

/-- Operational in dropped by the microprogram, lines 860-871. -/
def ifDrop (s : IF) : IF :=
  if bit s.c.IG 1 then
    { s with
      tags := s.tags &&& ~~~(OPR_IN ||| SRV_IN ||| STA_IN),
      c := { s.c with opr_in := false, selected := false, addressed := false, sta_in := false, srv_in := false,
                      IG := clrBit s.c.IG 1, ER := clrBit s.c.ER 7 } }
  else s

/-- Lines 873-876. -/
def ifOprIn (s : IF) : IF := if s.c.opr_in then { s with tags := s.tags ||| OPR_IN } else s

/-- Requests, lines 878-899. -/
def ifPoll (s : IF) : IF :=
  if s.c.selected = false then
    let r := s.c.request || bit s.c.IG 6 || (bit s.c.IG 4 && s.c.SC ≠ 0#8)
    let t := if r then s.tags ||| REQ_IN else s.tags
    { s with
      c := { s.c with request := r },
      tags := if bit s.c.IG 5 && up t STA_IN && up t SRV_OUT then t &&& ~~~STA_IN else t }
  else s

/-- The answer to select out, lines 901-906. -/
def ifReq (s : IF) : IF :=
  if s.c.request ∧ up s.tags REQ_IN ∧ up s.tags SUP_OUT = false ∧ up s.tags SEL_OUT then
    { s with tags := s.tags &&& ~~~REQ_IN, c := { s.c with request := false, selected := true } }
  else s

/-- End status, lines 908-921. -/
def ifEnd (s : IF) : IF :=
  if s.c.selected = false ∧ bit s.c.IG 5 ∧ up s.tags SEL_OUT ∧ up s.tags ADR_OUT = false ∧ up s.tags REQ_IN then
    { s with
      tags := (s.tags &&& ~~~(SEL_OUT ||| REQ_IN)) ||| (OPR_IN ||| ADR_IN), bin := withParity s.c.DW,
      c := { s.c with tr_1 := false, tr_2 := false, addressed := true } }
  else s

/-- Lines 924-953: select out is taken, address in, parity, the service request. -/
def data1 (bo : T) (s : IF) : IF :=
  let s := { s with tags := s.tags &&& ~~~SEL_OUT }
  let s := if bit s.c.IG 7 then
      { s with
        tags := s.tags ||| ADR_IN, bin := withParity s.c.DW, c := { s.c with opr_in := true, tr_1 := false } }
    else { s with tags := s.tags &&& ~~~ADR_IN }
  { s with c := { s.c with ER := putBit s.c.ER 2 (!parityOk bo), tr_2 := s.c.svc_req,
                           svc_req := s.c.svc_req && !s.c.srv_in } }

/-- Lines 955-978: service in. -/
def data2 (s : IF) : IF :=
  let s := if (bit s.c.IG 2 && s.c.tr_1) || (bit s.c.IG 0 && !s.c.srv_in) then
      { s with c := { s.c with svc_req := true } } else s
  let s := if s.c.tr_2 then
      { s with c := { s.c with srv_in := true }, tags := s.tags ||| SRV_IN, bin := withParity s.c.DW } else s
  let s := if (s.c.tr_1 && !bit s.c.IG 2) || !s.c.srv_in || (bit s.c.IG 2 && up s.tags SRV_OUT && !s.c.tr_2) then
      { s with c := { s.c with srv_in := false }, tags := s.tags &&& ~~~SRV_IN } else s
  { s with c := { s.c with tr_1 := false } }

/-- Lines 980-989: status in. -/
def data3 (s : IF) : IF :=
  if bit s.c.IG 5 then
    { s with
      tags := s.tags ||| STA_IN, bin := withParity s.c.DW, c := { s.c with sta_in := true, ER := clrBit s.c.ER 3 } }
  else { s with tags := s.tags &&& ~~~STA_IN, c := { s.c with sta_in := false } }

/-- Lines 923-990. -/
def ifData (bo : T) (s : IF) : IF :=
  if s.c.selected || s.c.addressed then data3 (data2 (data1 bo s)) else s

/-- `model2841_dev`, lines 772-992. -/
def dev (bo : T) (s : IF) : IF :=
  if s.tags &&& (OPR_OUT ||| SUP_OUT) = 0#16 then
    { s with
      tags := if s.c.selected then s.tags &&& ~~~(OPR_IN ||| ADR_IN ||| SRV_IN ||| STA_IN) else s.tags,
      c := { s.c with selected := false, addressed := false, WX := 0#16 } }
  else
    ifData bo (ifEnd (ifReq (ifPoll (ifOprIn (ifDrop (ifAddr bo (ifSel (ifSta (ifAdrIn (ifAsk
      { s with c := { s.c with bus_out := bo.setWidth 8, tags := s.tags } }))))))))))

/-- `model2841_init(addr)`, lines 994-1026: everything zero but the address. -/
def init (addr : T) : Ctx :=
  { addr := addr, selected := false, request := false, opr_in := false, addressed := false, tr_1 := false,
    tr_2 := false, srv_in := false, svc_req := false, sta_in := false, tags := 0#16, index := false,
    Abus := 0#8, Bbus := 0#8, Alu := 0#8, carry := false, d_nzero := false, DR := 0#8, ST := 0#8,
    OP := 0#8, DW := 0#8, UR := 0#8, BX := 0#8, BY := 0#8, DH := 0#8, DL := 0#8, FR := 0#8, GL := 0#8, KL := 0#8,
    ER := 0#8, GP := 0#8, SC := 0#8, IG := 0#8, bus_out := 0#8,
    WX := 0#16, FT := 0#8, FC := 0#8, cur := none, disk := fun _ => none }

end Verif.Ctl2841
