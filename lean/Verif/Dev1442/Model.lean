import Verif.Bus.Model
/-
The 1442 card reader and punch, /repo/src/model1442/model1442.c, and the operator keys of
/repo/src/model1442/panel1442.c.

The card decks are the model of card.c (`Verif.Card`).  Pending events are a list of callbacks; the delays are
dropped, so a callback may fire any time after it was requested.  `add_event` and `cancel_event` on the event list
itself are the subject of `Verif.Event`.  Logging is dropped.
-/
namespace Verif.Dev1442
open Verif.Bus
open Verif.Card (Res Img)

/-- The callbacks given to `add_event`. -/
inductive Cb where
  | read | write | feed
deriving DecidableEq, Repr

/-- The card path of `struct _1442_context`, model1442.h 58-73. -/
structure K where
  /-- `feed` -/
  hop : Card.Ctx
  /-- `stack[0]` -/
  stk0 : Card.Ctx
  /-- `stack[1]` -/
  stk1 : Card.Ctx
  rdrCard : Img
  rdrCol : Nat
  rdrFull : Bool
  hopCnt : Nat
  pchCard : Img
  pchCol : Nat
  pchFull : Bool
  stkSel : Bool
  rdy : Bool
  eof : Bool
  stop : Bool

/-- `struct _1442_context`, model1442.h 40-75, and the fields `addr`, `request`, `stacked`, `selected` of its
`struct _device`, device.h 129-141. -/
structure S where
  st : DState
  addr : Nat
  request : Bool
  stacked : Bool
  selected : Bool
  disconnect : Bool
  busy : Bool
  sense : Nat
  cmd : Nat
  status : Nat
  data : Nat
  cmdDone : Bool
  dataRdy : Bool
  dataEnd : Bool
  dataEndPost : Bool
  feedDone : Bool
  /-- pending events -/
  evs : List Cb
  k : K

/-- `add_event(unit, cb, ..)`. -/
def addEv (s : S) (c : Cb) : S := { s with evs := s.evs ++ [c] }

/-- `cancel_event(unit, cb)`: removes the first matching event. -/
def cancelEv (s : S) (c : Cb) : S := { s with evs := s.evs.erase c }

/-! ### Card movement -/

/-- Punch station to stacker, model1442.c 756-761. -/
def stackPunch (k : K) : Res K :=
  if k.pchFull then
    if k.stkSel then (Card.stackCard k.stk1 k.pchCard).bind (fun c => .ok { k with stk1 := c, pchFull := false, pchCol := 0 })
    else (Card.stackCard k.stk0 k.pchCard).bind (fun c => .ok { k with stk0 := c, pchFull := false, pchCol := 0 })
  else .ok k

/-- Read station to punch station, model1442.c 764-769. -/
def toPunch (k : K) : K :=
  if k.rdrFull then { k with pchCard := k.rdrCard, pchFull := true, rdrFull := false } else k

/-- Hopper to read station, model1442.c 771-781. -/
def toReader (k : K) : Res K :=
  if k.stop then .ok { k with rdy := false }
  else (Card.readCard k.hop).bind (fun r =>
    let k := { k with hop := r.2, rdrFull := r.1.isSome, rdrCard := r.1.getD k.rdrCard }
    let k := { k with hopCnt := Card.hopperSize k.hop, rdy := k.rdrFull }
    .ok (if k.hopCnt = 0 ∧ k.eof = false then { k with rdy := false } else k))

/-- `model1442_feed`, model1442.c 744-796. -/
def feed (s : S) : Res S :=
  if Card.hopperSize s.k.hop = 0 ∧ s.k.eof = false then .ok { s with sense := s.sense ||| eInterv, k := { s.k with rdy := false } }
  else (stackPunch s.k).bind (fun k => (toReader (toPunch k)).bind (fun k =>
    let k := { k with stop := false, rdrCol := 0 }
    .ok { s with k := k, sense := if k.rdy then s.sense &&& (0xff - eInterv) else s.sense ||| eInterv }))

/-! ### Callbacks -/

/-- `read_callback`, model1442.c 60-104. -/
def readCb (s : S) : Res S :=
  if s.dataEnd then .ok { addEv s .feed with status := s.status ||| sChnEnd }
  else if s.dataRdy = false then
    if s.k.rdrCol < 80 then
      (Card.getCol s.k.rdrCard s.k.rdrCol).bind (fun h => (Card.look (Card.holToEbcdic h)).bind (fun d =>
        let s := if d = 0x100 then { s with data := 0, sense := s.sense ||| eDatChk } else { s with data := d }
        .ok { addEv { s with k := { s.k with rdrCol := s.k.rdrCol + 1 }, dataRdy := true } .read with request := true }))
    else .ok { addEv { s with status := s.status ||| sChnEnd, dataEnd := true } .feed with request := true }
  else .ok { addEv { s with sense := s.sense ||| eOvrRun, status := s.status ||| (sChnEnd ||| sUnitChk), dataEnd := true } .feed with request := true }

/-- The overrun of a write, model1442.c 112-125. -/
def writeOverrun (s : S) : S :=
  let s := { s with sense := s.sense ||| eOvrRun, status := s.status ||| (sChnEnd ||| sUnitChk), dataEnd := true, request := true }
  if tst s.cmd 0x80 then addEv s .feed
  else { s with status := s.status ||| sDevEnd, cmdDone := true, busy := false, cmd := 0 }

/-- Punch the current column, model1442.c 128-131; `ebcdic_to_hol` takes a `uint8_t`. -/
def punchCol (s : S) : Res S :=
  if s.k.pchCol < 80 then
    (Card.getCol s.k.pchCard s.k.pchCol).bind (fun o => (Card.look (Card.ebcdicToHol (s.data % 256))).bind (fun h =>
      (Card.setCol s.k.pchCard s.k.pchCol (o ||| h)).bind (fun img =>
        .ok { s with k := { s.k with pchCard := img, pchCol := s.k.pchCol + 1 } })))
  else .ok s

/-- `write_callback`, model1442.c 106-136. -/
def writeCb (s : S) : Res S :=
  if s.dataRdy then .ok (writeOverrun s)
  else (punchCol s).bind (fun s => .ok (addEv { s with dataRdy := true, request := true } .write))

/-- `feed_callback`, model1442.c 138-159. -/
def feedCb (s : S) : Res S :=
  let s := { s with status := s.status ||| sDevEnd, busy := false, cmdDone := true, feedDone := true, request := true }
  if s.k.hopCnt = 0 ∧ s.k.eof = true then
    feed { s with status := s.status ||| sUnitExp, k := { s.k with eof := false } }
  else (feed s).bind (fun s => .ok (if s.sense ≠ 0 then { s with status := s.status ||| sUnitChk } else s))

/-- `device_stop`, model1442.c 162-191. -/
def deviceStop (s : S) : S :=
  let s := { s with status := s.status ||| sChnEnd, dataEnd := true }
  if s.cmd &&& 3 = 1 then
    let s := cancelEv s .write
    if tst s.cmd 0x80 then addEv s .feed
    else { s with status := (if s.sense ≠ 0 then s.status ||| sDevEnd ||| sUnitChk else s.status ||| sDevEnd), cmdDone := true, busy := false, cmd := 0 }
  else if s.cmd &&& 3 = 2 then addEv (cancelEv s .read) .feed
  else s

/-! ### Commands -/

/-- The end of `device_cmd`, model1442.c 293-301. -/
def cmdEnd (s : S) : S :=
  let s := if s.dataEnd then { s with status := s.status ||| sChnEnd } else s
  if s.cmdDone then { s with status := (if s.sense ≠ 0 then s.status ||| sDevEnd ||| sUnitChk else s.status ||| sDevEnd) } else s

/-- `case 1`, model1442.c 215-233. -/
def cmdWrite (s : S) (cmd : Nat) : S :=
  let s := { s with sense := s.sense &&& eInterv }
  if tst cmd 0x5c then cmdEnd { s with sense := s.sense ||| eCmdRej }
  else
    let s := { s with k := { s.k with stkSel := tst cmd 0x20 } }
    if s.k.pchFull = false then cmdEnd s
    else cmdEnd (addEv { s with cmd := cmd, dataEnd := false, cmdDone := false, dataRdy := true, busy := true } .write)

/-- `case 2`, model1442.c 235-252. -/
def cmdRead (s : S) (cmd : Nat) : S :=
  let s := { s with sense := s.sense &&& eInterv }
  if tst cmd 0xdc then cmdEnd { s with sense := s.sense ||| eCmdRej }
  else
    let s := { s with k := { s.k with stkSel := tst cmd 0x20 } }
    if s.k.rdy = false then cmdEnd { s with sense := s.sense ||| eInterv }
    else cmdEnd (addEv { s with cmd := cmd, dataEnd := false, cmdDone := false, busy := true } .read)

/-- `case 3`, model1442.c 254-273. -/
def cmdFeed (s : S) (cmd : Nat) : S :=
  let s := { s with sense := s.sense &&& eInterv }
  if tst cmd 0x5c then cmdEnd { s with sense := s.sense ||| eCmdRej }
  else
    let s := { s with k := { s.k with stkSel := tst cmd 0x20 } }
    if tst cmd 0x80 = false then { s with status := s.status ||| (sChnEnd ||| sDevEnd) }
    else if s.k.rdy = false then cmdEnd { s with sense := s.sense ||| eInterv }
    else cmdEnd (addEv { s with cmd := cmd, cmdDone := false, busy := true } .feed)

/-- `device_cmd`, model1442.c 194-302. -/
def deviceCmd (s : S) (bus : Nat) : S :=
  let cmd := bus % 256
  let s := { s with cmd := 0, dataRdy := false, dataEnd := true, feedDone := false, cmdDone := true, status := 0 }
  match cmd &&& 7 with
  | 0 => { s with dataEnd := false, cmdDone := false, status := (if s.sense ≠ 0 then s.status ||| sUnitChk else s.status) }
  | 1 => cmdWrite s cmd
  | 2 => cmdRead s cmd
  | 3 => cmdFeed s cmd
  | 4 =>
    if cmd ≠ 4 then cmdEnd { s with sense := s.sense ||| eCmdRej }
    else { s with data := s.sense, cmd := cmd, cmdDone := false, dataEnd := false, dataRdy := true }
  | _ => cmdEnd { s with sense := s.sense ||| eCmdRej }

/-! ### The channel interface -/

/-- What a call of the bus function leaves: device, tags, bus in. -/
abbrev Io := S × Tags × Nat

/-- Reset, model1442.c 317-333. -/
def reset (s : S) : S :=
  { s with selected := false, request := false, st := .idle, status := 0, sense := 0, cmd := 0, cmdDone := false, busy := false, dataEnd := false, dataRdy := false }

/-- `STATE_IDLE`, addressed by the channel, model1442.c 369-393. -/
def idleAddressed (s : S) (t : Tags) (bo bi : Nat) : Io :=
  if bo % 256 = s.addr % 256 then
    let t := { t with sel := false, reqIn := false }
    let s := if parBad bo then { s with sense := s.sense ||| eBusChk } else s
    if s.busy then ({ s with st := .busy }, { t with staIn := true }, bytePar sBusy)
    else ({ s with st := .initSel, selected := true }, { t with oprIn := true }, bytePar s.addr)
  else (s, t, bi)

/-- `STATE_IDLE`, posting the request, model1442.c 357-364. -/
def idleRequest (s : S) (t : Tags) : Tags :=
  if s.request || s.stacked then { t with reqIn := (!t.sup && !t.adr) || s.dataRdy } else t

/-- `STATE_IDLE`, model1442.c 337-406. -/
def idle (s : S) (t : Tags) (bo bi : Nat) : Io :=
  let s := { s with disconnect := false }
  if t.opr = false then (s, t, bi)
  else if t.oprIn then (s, if s.request || s.stacked then { t with reqIn := false } else t, bi)
  else
    let t := idleRequest s t
    if t.sel then
      if t.adr then idleAddressed s t bo bi
      else if t.sup = false && (s.request || s.stacked) then
        ({ s with selected := true, st := .initSel }, { t with sel := false, reqIn := false, oprIn := true }, bytePar s.addr)
      else (s, t, bi)
    else (s, t, bi)

/-- `STATE_INIT_SEL`, model1442.c 409-418. -/
def initSel (s : S) (t : Tags) : Io :=
  let t := { t with sel := false }
  if t.adr = false then ({ s with st := .command }, { t with adrIn := true }, bytePar s.addr) else (s, t, bytePar s.addr)

/-- `STATE_COMMAND` with command out up, model1442.c 428-457. -/
def commandOut (s : S) (t : Tags) (bo : Nat) : Io :=
  let t := { t with adrIn := false }
  if parBad bo then
    ({ s with cmd := 0, cmdDone := false, busy := false, dataEnd := false, status := sChnEnd ||| sDevEnd ||| sUnitChk, sense := s.sense ||| eBusChk, st := .status }, t, bytePar s.addr)
  else if s.busy then
    if s.dataEnd = false then ({ s with st := .data1 }, t, bytePar s.addr)
    else ({ s with status := if s.status = 0 then sBusy else s.status, st := .status }, t, bytePar s.addr)
  else
    let s := { s with st := .status }
    (if s.stacked = false && s.status = 0 then deviceCmd s bo else s, t, bytePar s.addr)

/-- `STATE_COMMAND`, model1442.c 420-471. -/
def command (s : S) (t : Tags) (bo : Nat) : Io :=
  let t := { t with sel := false }
  let s := { s with request := false }
  if t.cmd then commandOut s t bo
  else if t.adr && !t.hld then
    let s := if s.dataEnd = false then { s with dataEnd := true, status := s.status ||| sChnEnd } else s
    ({ s with st := .statusWait }, { t with adrIn := false, oprIn := false }, bytePar s.addr)
  else (s, t, bytePar s.addr)

/-- `STATE_STATUS`, model1442.c 474-482. -/
def status (s : S) (t : Tags) : Res Io :=
  (withPar s.status).bind (fun b => .ok ({ s with st := .statusAccept }, { t with sel := false, adrIn := false, staIn := true }, b))

/-- `STATE_STATUS_ACCEPT` with service out up, model1442.c 497-526. -/
def statusAccepted (s : S) (t : Tags) (b : Nat) : Io :=
  let s := { s with status := 0 }
  let t := { t with staIn := false }
  if s.cmdDone || s.cmd = 0 then
    ({ s with stacked := false, dataEnd := false, dataEndPost := false, cmdDone := false, cmd := 0, busy := false, st := .statusWait }, { t with oprIn := false }, b)
  else if s.dataEnd then ({ s with st := .statusWait }, if t.hld = false then { t with oprIn := false } else t, b)
  else ({ s with disconnect := if s.dataRdy = false then true else s.disconnect, st := .opr }, t, b)

/-- `STATE_STATUS_ACCEPT`, model1442.c 485-531. -/
def statusAccept (s : S) (t : Tags) : Res Io :=
  (withPar s.status).bind (fun b =>
    let t := { t with sel := false }
    if t.cmd then .ok ({ s with stacked := true, st := .statusWait }, { t with oprIn := false, staIn := false }, b)
    else if t.srv then .ok (statusAccepted s t b)
    else if t.adr then .ok ({ s with st := .idle }, { t with oprIn := false, staIn := false }, b)
    else .ok (s, t, b))

/-- `STATE_STATUS_WAIT`, model1442.c 534-545. -/
def statusWait (s : S) (t : Tags) (bi : Nat) : Io :=
  let t := { t with sel := false }
  if t.cmd || t.srv || t.adr then (s, t, bi)
  else if t.hld = false || s.busy = false then ({ s with selected := false, st := .idle }, { t with oprIn := false }, bi)
  else ({ s with st := .waitDevend }, t, bi)

/-- `STATE_BUSY`, model1442.c 548-565. -/
def busyState (s : S) (t : Tags) : Io :=
  if t.sel = false then
    let s := { s with selected := false, st := .idle }
    let s := if t.adr && !s.dataEnd then { s with dataRdy := false, dataEnd := true, request := true } else s
    (s, { t with sel := false, staIn := false }, bytePar sBusy)
  else (s, { t with sel := false }, bytePar sBusy)

/-- `STATE_END_STATUS`, model1442.c 568-580. -/
def endStatus (s : S) (t : Tags) (bi : Nat) : Res Io :=
  let t := { t with sel := false }
  if t.cmd || t.srv then .ok (s, t, bi)
  else (withPar s.status).bind (fun b => .ok ({ s with st := .endAccept }, { t with staIn := true }, b))

/-- `STATE_END_ACCEPT` with service out up, model1442.c 600-627. -/
def endAccepted (s : S) (t : Tags) (b : Nat) : Io :=
  let s := { s with status := 0 }
  if s.cmdDone then
    ({ s with stacked := false, cmd := 0, cmdDone := false, busy := false, dataEnd := false, st := .statusWait }, { t with staIn := false, oprIn := false }, b)
  else if s.dataEnd then ({ s with st := .statusWait }, { t with staIn := false, oprIn := false }, b)
  else if t.hld then ({ s with st := .waitDevend }, { t with staIn := false }, b)
  else ({ s with st := .statusWait }, { t with staIn := false, oprIn := false }, b)

/-- `STATE_END_ACCEPT`, model1442.c 583-628. -/
def endAccept (s : S) (t : Tags) : Res Io :=
  (withPar s.status).bind (fun b =>
    let t := { t with sel := false }
    if t.cmd then .ok ({ s with stacked := true, st := .statusWait }, { t with staIn := false, oprIn := false }, b)
    else if t.srv then .ok (endAccepted s t b)
    else .ok (s, t, b))

/-- `STATE_WAIT_DEVEND`, model1442.c 631-639. -/
def waitDevend (s : S) (t : Tags) (bi : Nat) : Io :=
  let t := { t with sel := false }
  if s.cmdDone then ({ s with request := false, st := .status }, t, bi) else (s, t, bi)

/-- `STATE_OPR` with no data ready, model1442.c 664-692. -/
def oprIdle (s : S) (t : Tags) (bi : Nat) : Io :=
  let s := if s.cmd = 4 then { s with disconnect := false, dataEnd := true, cmdDone := true, busy := false, status := s.status ||| (sChnEnd ||| sDevEnd) } else s
  if s.dataEnd || s.cmdDone then ({ s with st := .endStatus }, t, bi)
  else if s.disconnect then
    let s := { s with disconnect := false }
    if t.hld = false then ({ s with selected := false, st := .idle }, { t with oprIn := false }, bi) else (s, t, bi)
  else (s, t, bi)

/-- `STATE_OPR`, model1442.c 642-693. -/
def opr (s : S) (t : Tags) (bi : Nat) : Io :=
  let s := { s with request := false }
  let t := { t with sel := false }
  if t.adr then ({ s with dataEnd := true, dataRdy := false, status := s.status ||| sChnEnd, selected := false, st := .idle }, { t with oprIn := false }, bi)
  else if s.dataRdy then ({ s with st := .data1 }, t, bi)
  else oprIdle s t bi

/-- `STATE_DATA_1`, model1442.c 695-708. -/
def data1 (s : S) (t : Tags) (bi : Nat) : Res Io :=
  let t := { t with sel := false }
  if t.srv then .ok (s, t, bi)
  else if t.sup then .ok (s, t, bi)
  else (withPar s.data).bind (fun b => .ok ({ s with st := .data2 }, { t with srvIn := true }, b))

/-- Take the byte of a write command, model1442.c 717-729. -/
def takeByte (s : S) (bo : Nat) : S :=
  if tst s.cmd 1 then
    if parBad bo then { s with sense := s.sense ||| eBusChk, status := s.status ||| sUnitChk ||| (sChnEnd ||| sDevEnd), dataEnd := true, busy := false, cmdDone := true }
    else { s with data := bo }
  else s

/-- `STATE_DATA_2`, model1442.c 710-736. -/
def data2 (s : S) (t : Tags) (bo : Nat) : Res Io :=
  (withPar s.data).bind (fun b =>
    let t := { t with sel := false }
    if t.srv || t.cmd then
      let s := { takeByte { s with dataRdy := false } bo with st := .opr }
      let s := if t.cmd then deviceStop s else s
      .ok ({ s with disconnect := true }, { t with srvIn := false }, b)
    else .ok (s, t, b))

/-- `model1442_dev`, model1442.c 305-738. -/
def dev (s : S) (t : Tags) (bo bi : Nat) : Res Io :=
  if t.opr = false ∧ t.sup = false then
    .ok (reset s, if s.selected then { t with oprIn := false, adrIn := false, srvIn := false, staIn := false } else t, bi)
  else
    match s.st with
    | .idle => .ok (idle s t bo bi)
    | .initSel => .ok (initSel s t)
    | .command => .ok (command s t bo)
    | .status => status s t
    | .statusAccept => statusAccept s t
    | .statusWait => .ok (statusWait s t bi)
    | .busy => .ok (busyState s t)
    | .endStatus => endStatus s t bi
    | .endAccept => endAccept s t
    | .waitDevend => .ok (waitDevend s t bi)
    | .opr => .ok (opr s t bi)
    | .data1 => data1 s t bi
    | .data2 => data2 s t bo

/-! ### Operator keys -/

/-- `model1442_update` recomputes the counts after every key, panel1442.c 292-294; the stacker counts are for display only. -/
def counts (s : S) : S := { s with k := { s.k with hopCnt := Card.hopperSize s.k.hop } }

/-- END OF FILE key, panel1442.c 230-232. -/
def keyEof (s : S) : S := counts { s with k := { s.k with eof := !s.k.eof } }

/-- START key, panel1442.c 234-247. -/
def keyStart (s : S) : Res S :=
  if s.st = .idle then
    ((if s.k.rdrFull = false then feed s else .ok s)).bind (fun s =>
      .ok (counts (if s.k.rdrFull then { s with status := sDevEnd, dataEnd := true, feedDone := true } else s)))
  else .ok (counts s)

/-- NPRO key, panel1442.c 249-253.  The field `selected` of the context that it tests is never set (the bus function
sets the one of the device), so the feed is not conditional. -/
def keyNpro (s : S) : Res S := (feed s).bind (fun s => .ok (counts { s with k := { s.k with eof := false } }))

/-- STOP key, panel1442.c 255-257. -/
def keyStop (s : S) : S := counts { s with k := { s.k with stop := true } }

/-- SAVE of stacker 1 and 2, panel1442.c 280-290: both save `stack[0]`. -/
def keySave (s : S) (_two : Bool) : Res S := (Card.saveDeck s.k.stk0).bind (fun c => .ok (counts { s with k := { s.k with stk0 := c } }))

/-- `model1442_init`, model1442.c 798-838. -/
def init (addr : Nat) : S :=
  { st := .idle, addr, request := false, stacked := false, selected := false, disconnect := false, busy := false, sense := 0, cmd := 0, status := 0, data := 0, cmdDone := false, dataRdy := false, dataEnd := false, dataEndPost := false, feedDone := false, evs := []
    k := { hop := Card.initCtx, stk0 := Card.initCtx, stk1 := Card.initCtx, rdrCard := Card.blank, rdrCol := 0, rdrFull := false, hopCnt := 0, pchCard := Card.blank, pchCol := 0, pchFull := false, stkSel := false, rdy := false, eof := false, stop := false } }

/-- What can happen to a 1442. -/
inductive Op where
  /-- the bus function is called with these tags and bus values -/
  | bus (t : Tags) (bo bi : Nat)
  /-- a pending event fires -/
  | fire (c : Cb)
  | eofKey | startKey | nproKey | stopKey
deriving Repr

/-- One thing happening.  An event that is not pending cannot fire. -/
def step (s : S) : Op → Res S
  | .bus t bo bi => (dev s t bo bi).bind (fun r => .ok r.1)
  | .fire c =>
    if c ∈ s.evs then
      let s := { s with evs := s.evs.erase c }
      match c with
      | .read => readCb s
      | .write => writeCb s
      | .feed => feedCb s
    else .ok s
  | .eofKey => .ok (keyEof s)
  | .startKey => keyStart s
  | .nproKey => keyNpro s
  | .stopKey => .ok (keyStop s)

def run : S → List Op → Res S
  | s, [] => .ok s
  | s, o :: os => (step s o).bind (fun s => run s os)

end Verif.Dev1442
