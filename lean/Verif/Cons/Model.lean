import Verif.Bus.Model
/-
The 1052 console, /repo/src/model1052/model1052.c.

The socket is a source of packets (what one `recv` returns) and a sink of bytes (`sent`).  Bytes of type `char` are
given by their unsigned value.  The thread of the socket and the thread of the CPU take turns call by call here;
`Verif.Cons.Race` looks at the counter they share.  Pending events are a list of callbacks without delays.  Logging is
dropped; form feed only switches logging.
-/
namespace Verif.Cons
open Verif.Bus
open Verif.Card (Res)

/-- `TNS_*`, model1052.c 62-67. -/
inductive TState where
  | norm | iac | will | wont | skip
deriving DecidableEq, Repr

/-- The terminal part of `struct _1052_context`, model1052.c 95-112, and `t_state` of the thread. -/
structure T where
  /-- `key_buf`, 256 entries -/
  key : Nat → Nat := fun _ => 0
  inFlg : Bool := false
  inPtr : Nat := 0
  outPtr : Nat := 0
  inLen : Nat := 0
  outBuf : Nat := 0
  outFlg : Bool := false
  outCr : Bool := false
  home : Bool := false
  attn : Bool := false
  cancel : Bool := false
  eob : Bool := false
  /-- `cons != 0` -/
  cons : Bool := false
  tns : TState := .norm
  /-- every byte sent to the terminal so far -/
  sent : List Nat := []

/-! ### The terminal -/

/-- `push_char`, model1052.c 915-942. -/
def pushChar (t : T) (c : Nat) : Res T :=
  if c = 12 then .ok t
  else if c = 27 then .ok { t with attn := true }
  else if t.inFlg then
    if c = 3 then .ok { t with cancel := true }
    else if c = 13 then .ok { t with eob := true, outCr := true }
    else if t.inPtr < 256 then
      .ok { t with key := fun i => if i = t.inPtr then c else t.key i, inPtr := (t.inPtr + 1) % 256, inLen := t.inLen + 1, sent := t.sent ++ [c] }
    else .oob
  else .ok t

/-- One byte of the telnet stream, the `switch` of model1052.c 1024-1051. -/
def telnet (t : T) (c : Nat) : Res T :=
  match t.tns with
  | .norm => if c = 255 then .ok { t with tns := .iac } else pushChar t c
  | .iac =>
    if c = 255 then (pushChar t c).bind (fun t => .ok { t with tns := .norm })
    else if c = 243 then .ok { t with tns := .norm }
    else if c = 251 then .ok { t with tns := .will }
    else if c = 252 then .ok { t with tns := .wont }
    else .ok { t with tns := .skip }
  | .will => .ok { t with tns := .norm }
  | .wont => .ok { t with tns := .norm }
  | .skip => .ok { t with tns := .norm }

/-- The loop over what `recv` returned, model1052.c 1019-1052; `j = 0` is the end of the connection, 1012-1017. -/
def packetLoop (t : T) : List Nat → Res T
  | [] => .ok t
  | c :: cs => if t.inLen < 256 then (telnet t c).bind (fun t => packetLoop t cs) else .ok t

/-- Input from the socket, model1052.c 1010-1052. `recv` is given 256 bytes. -/
def packet (t : T) (bs : List Nat) : Res T :=
  if t.cons = false then .ok t else if bs = [] then .ok { t with cons := false } else packetLoop t (bs.take 256)

/-- `accept`, model1052.c 976-995; a second caller is sent away. -/
def connect (t : T) : T :=
  if t.cons then t
  else { t with cons := true, inPtr := 0, outPtr := 0, inLen := 0, tns := .norm, sent := t.sent ++ [255, 251, 34, 255, 251, 3, 255, 251, 1, 255, 251, 0, 255, 253, 0] }

/-- Output of the thread, model1052.c 997-1008. -/
def flush (t : T) : T :=
  let t := if t.outFlg then { t with outFlg := false, sent := t.sent ++ (if t.outBuf = 13 then [t.outBuf, 10] else [t.outBuf]) } else t
  if t.outCr then { t with outCr := false, sent := t.sent ++ [13, 10] } else t

/-- `model1052_out`, model1052.c 764-771. -/
def out (t : T) (v : Nat) : Res T :=
  (Card.look (Xlat.ebcdicToAscii (v % 256))).bind (fun c => .ok { t with outBuf := c, outFlg := true })

/-- `model1052_in`, model1052.c 777-789: the new terminal and what is stored in `*in_char`, if anything. -/
def inp (t : T) : Res (T × Option Nat) :=
  if t.inFlg = true ∧ t.inLen > 0 then
    if t.outPtr < 256 then
      (Card.look (Xlat.asciiToEbcdic (t.key t.outPtr % 256))).bind (fun e =>
        (withPar e).bind (fun b => .ok ({ t with outPtr := (t.outPtr + 1) % 256, inLen := t.inLen - 1 }, some b)))
    else .oob
  else .ok (t, none)

/-- Reset signal, model1052.c 831-838. -/
def clear (t : T) : T :=
  { t with inFlg := false, inLen := 0, outPtr := t.inPtr, cancel := false, eob := false, home := false }

/-- The signals to the terminal, model1052.c 830-858 and 880-883. -/
def signals (t : T) (tags : Nat) : T :=
  let t := if tst tags 0x01 then clear t else t
  let t := if tst tags 0x02 then { t with attn := false } else t
  let t := if tst tags 0x80 then { t with home := true } else t
  if tags &&& 0x50 = 0x50 then { t with inFlg := true } else t

/-- The signals from the terminal, model1052.c 828, 860-878. -/
def tagsOut (t : T) : Nat :=
  let v := 0x10
  let v := if t.home = true ∧ t.outFlg = false ∧ t.outCr = false then v ||| 0x40 else v
  let v := if t.inLen > 0 then v ||| 0x40
    else
      let v := if t.cancel then v ||| 0x80 else v
      if t.eob then v ||| 0x20 else v
  if t.attn then v ||| 0x02 else v

/-- `model1052_func`, model1052.c 817-892: the terminal, `*tags_out` and `*t_request`. -/
def func (t : T) (tags : Nat) : T × Nat × Bool :=
  if t.cons = false then (t, 0, false)
  else
    let t := signals t tags
    let o := tagsOut t
    (if tst tags 0x04 then { t with outCr := true } else t, o, tst o 0xef)

/-! ### The device -/

/-- The callbacks given to `add_event`. -/
inductive Cb where
  | poll | send
deriving DecidableEq, Repr

/-- The channel part of `struct _1052_context`, model1052.c 82-95, and the fields of `struct _device`. -/
structure S where
  st : DState := .idle
  addr : Nat
  request : Bool := false
  stacked : Bool := false
  selected : Bool := false
  busy : Bool := false
  sense : Nat := 0
  cmd : Nat := 0
  status : Nat := 0
  data : Nat := 0
  cmdDone : Bool := false
  dataRdy : Bool := false
  dataEnd : Bool := false
  evs : List Cb := []
  t : T := {}

/-- `add_event`. -/
def addEv (s : S) (c : Cb) : S := { s with evs := s.evs ++ [c] }

/-- `cancel_event`. -/
def cancelEv (s : S) (c : Cb) : S := { s with evs := s.evs.erase c }

/-- A call of `model1052_func` whose answer is not used. -/
def signal (s : S) (tags : Nat) : S := { s with t := (func s.t tags).1 }

/-- End of input seen by `poll_callback`, model1052.c 143-155. -/
def pollEnd (s : S) (o : Nat) : S :=
  let s := if tst o 0xa0 then
      let s := if tst o 0x80 then { s with status := s.status ||| sUnitExp, t := { s.t with outCr := true } } else s
      { s with dataEnd := true, cmdDone := true, request := true }
    else s
  if tst o 0x02 then { s with request := true } else s

/-- `poll_callback`, model1052.c 127-161 (the device is running). -/
def pollCb (s : S) : Res S :=
  let r := func s.t 0
  let s := { s with t := r.1 }
  let o := r.2.1
  (if tst s.cmd 1 = false ∧ tst o 0x40 = true then
      (inp s.t).bind (fun q => .ok { s with t := q.1, data := (q.2.getD s.data) % 256, dataRdy := true, request := true })
    else .ok s).bind (fun s => .ok (addEv (pollEnd s o) .poll))

/-- `send_callback`, model1052.c 163-180. -/
def sendCb (s : S) : Res S :=
  let r := func s.t 0
  let s := { s with t := r.1 }
  if tst s.cmd 1 = true ∧ tst r.2.1 0x40 = true then
    (out s.t s.data).bind (fun t => .ok { s with t := t, dataRdy := true, request := true })
  else .ok (addEv s .send)

/-- The label `invalid`, model1052.c 202-209. -/
def invalid (s : S) : S :=
  { s with cmd := 0, cmdDone := true, dataEnd := true, busy := false, status := sChnEnd ||| sDevEnd ||| sUnitChk, sense := eCmdRej }

/-- `device_cmd`, model1052.c 183-247. -/
def deviceCmd (s : S) (bus : Nat) : S :=
  if s.busy then { s with status := sBusy }
  else
    let s := { s with cmd := bus % 256, dataRdy := false, dataEnd := false, cmdDone := false, stacked := false, status := 0 }
    if tst s.cmd 0xf0 then invalid s
    else
      match s.cmd &&& 0xf with
      | 0x0 => s
      | 0x1 => { signal { s with sense := 0 } 0x81 with dataRdy := true, busy := true }
      | 0x9 => { signal { s with sense := 0 } 0x81 with dataRdy := true, busy := true }
      | 0xa => { signal { s with sense := 0 } 0x51 with busy := true }
      | 0x3 => { s with sense := 0, status := sChnEnd ||| sDevEnd, dataEnd := true, busy := true, cmdDone := true }
      | 0x4 => { s with data := s.sense, dataRdy := true, dataEnd := true, busy := true }
      | _ => invalid s

/-- What a call of the bus function leaves: device, tags, bus in. -/
abbrev Io := S × Tags × Nat

/-- Reset, model1052.c 265-283. -/
def reset (s : S) : S :=
  let s := { s with selected := false, request := false, st := .idle, sense := 0, cmd := 0, cmdDone := false, busy := false, dataEnd := false, dataRdy := false }
  addEv (cancelEv (signal s 0x03) .poll) .poll

/-- `STATE_IDLE`, addressed by the channel, model1052.c 313-337. -/
def idleAddressed (s : S) (t : Tags) (bo bi : Nat) : Io :=
  if bo % 256 = s.addr % 256 then
    let t := { t with sel := false, reqIn := false }
    let s := if parBad bo then { s with sense := s.sense ||| eBusChk } else s
    if s.busy then ({ s with st := .busy }, { t with staIn := true }, bytePar sBusy)
    else ({ s with st := .initSel, selected := true }, { t with oprIn := true }, bytePar s.addr)
  else (s, t, bi)

/-- `STATE_IDLE`, model1052.c 287-350. -/
def idle (s : S) (t : Tags) (bo bi : Nat) : Io :=
  if t.opr = false then (s, t, bi)
  else if t.oprIn then (s, if s.request || s.stacked then { t with reqIn := false } else t, bi)
  else
    let t := if s.request || s.stacked then { t with reqIn := !t.sup && !t.adr } else t
    if t.sel then
      if t.adr then idleAddressed s t bo bi
      else if t.sup = false && (s.request || s.stacked) then
        ({ s with selected := true, st := .initSel }, { t with sel := false, reqIn := false, oprIn := true }, bytePar s.addr)
      else (s, t, bi)
    else (s, t, bi)

/-- `STATE_INIT_SEL`, model1052.c 353-362. -/
def initSel (s : S) (t : Tags) : Io :=
  let t := { t with sel := false }
  if t.adr = false then ({ s with st := .command }, { t with adrIn := true }, bytePar s.addr) else (s, t, bytePar s.addr)

/-- `STATE_COMMAND` with command out up, model1052.c 372-401. -/
def commandOut (s : S) (t : Tags) (bo : Nat) : Io :=
  let t := { t with adrIn := false }
  if parBad bo then
    ({ s with cmd := 0, cmdDone := false, busy := false, dataEnd := false, status := sChnEnd ||| sDevEnd ||| sUnitChk, sense := s.sense ||| eBusChk, st := .status }, t, bytePar s.addr)
  else if s.busy then
    if s.dataEnd = false then ({ s with st := .data1 }, t, bytePar s.addr)
    else
      let s := if s.cmdDone then signal { s with status := s.status ||| (sChnEnd ||| sDevEnd) } 0x01 else s
      ({ s with st := .status }, t, bytePar s.addr)
  else
    let s := { s with st := .status }
    (if s.stacked = false && s.status = 0 then deviceCmd s bo else s, t, bytePar s.addr)

/-- `STATE_COMMAND`, model1052.c 364-415. -/
def command (s : S) (t : Tags) (bo : Nat) : Io :=
  let t := { t with sel := false }
  let s := { s with request := false }
  if t.cmd then commandOut s t bo
  else if t.adr && !t.hld then
    let s := if s.dataEnd = false then { s with dataEnd := true, status := s.status ||| sChnEnd } else s
    ({ s with st := .statusWait }, { t with adrIn := false, oprIn := false }, bytePar s.addr)
  else (s, t, bytePar s.addr)

/-- `STATE_STATUS`, model1052.c 418-431. -/
def status (s : S) (t : Tags) : Res Io :=
  let t := { t with sel := false, adrIn := false }
  let s := if s.t.attn then { signal s 0x02 with status := s.status ||| sAttn } else s
  (withPar s.status).bind (fun b => .ok ({ s with st := .statusAccept }, { t with staIn := true }, b))

/-- `STATE_STATUS_ACCEPT` with service out up, model1052.c 446-470. -/
def statusAccepted (s : S) (t : Tags) (b : Nat) : Io :=
  let s := { s with status := 0 }
  let t := { t with staIn := false }
  if s.cmdDone || s.cmd = 0 then
    ({ s with stacked := false, dataEnd := false, cmdDone := false, cmd := 0, busy := false, st := .statusWait }, { t with oprIn := false }, b)
  else if s.dataEnd then ({ s with st := .statusWait }, if t.hld = false then { t with oprIn := false } else t, b)
  else ({ s with st := .opr }, t, b)

/-- `STATE_STATUS_ACCEPT`, model1052.c 434-475. -/
def statusAccept (s : S) (t : Tags) : Res Io :=
  (withPar s.status).bind (fun b =>
    let t := { t with sel := false }
    if t.cmd then .ok ({ s with stacked := true, st := .statusWait }, { t with oprIn := false, staIn := false }, b)
    else if t.srv then .ok (statusAccepted s t b)
    else if t.adr then .ok ({ s with st := .idle }, { t with oprIn := false, staIn := false }, b)
    else .ok (s, t, b))

/-- `STATE_STATUS_WAIT`, model1052.c 478-489. -/
def statusWait (s : S) (t : Tags) (bi : Nat) : Io :=
  let t := { t with sel := false }
  if t.cmd || t.srv || t.adr then (s, t, bi)
  else if t.hld = false || s.busy = false then ({ s with selected := false, st := .idle }, { t with oprIn := false }, bi)
  else ({ s with st := .waitDevend }, t, bi)

/-- `STATE_BUSY`, model1052.c 492-511. -/
def busyState (s : S) (t : Tags) : Io :=
  if t.sel = false then
    let s := { s with selected := false, st := .idle }
    let s := if t.adr && !s.dataEnd then { s with dataRdy := false, dataEnd := true, status := s.status ||| (sChnEnd ||| sDevEnd), cmdDone := true, request := true } else s
    (s, { t with sel := false, staIn := false }, bytePar sBusy)
  else (s, { t with sel := false }, bytePar sBusy)

/-- `STATE_END_STATUS`, model1052.c 514-526. -/
def endStatus (s : S) (t : Tags) (bi : Nat) : Res Io :=
  let t := { t with sel := false }
  if t.cmd || t.srv then .ok (s, t, bi)
  else (withPar s.status).bind (fun b => .ok ({ s with st := .endAccept }, { t with staIn := true }, b))

/-- `STATE_END_ACCEPT` with service out up, model1052.c 543-572. -/
def endAccepted (s : S) (t : Tags) (b : Nat) : Io :=
  let s := { s with status := 0 }
  if s.cmdDone then
    ({ s with stacked := false, cmd := 0, cmdDone := false, busy := false, st := .statusWait }, { t with staIn := false, oprIn := false }, b)
  else if s.dataEnd then ({ s with st := .statusWait }, { t with staIn := false, oprIn := false }, b)
  else if t.hld then ({ s with st := .waitDevend }, { t with staIn := false }, b)
  else ({ s with st := .statusWait }, { t with staIn := false, oprIn := false }, b)

/-- `STATE_END_ACCEPT`, model1052.c 529-573. -/
def endAccept (s : S) (t : Tags) : Res Io :=
  (withPar s.status).bind (fun b =>
    let t := { t with sel := false }
    if t.cmd then .ok ({ s with stacked := true, st := .statusWait }, { t with staIn := false, oprIn := false }, b)
    else if t.srv then .ok (endAccepted s t b)
    else .ok (s, t, b))

/-- `STATE_WAIT_DEVEND`, model1052.c 576-584. -/
def waitDevend (s : S) (t : Tags) (bi : Nat) : Io :=
  let t := { t with sel := false }
  if s.cmdDone then ({ s with request := false, st := .status }, t, bi) else (s, t, bi)

/-- What is signalled to the terminal at the end of a command, model1052.c 613-628. -/
def endSignal (s : S) : S :=
  match s.cmd &&& 0xf with
  | 0x9 => signal s 0x05
  | 0x1 => signal s 0x01
  | 0xa => signal s 0x50
  | _ => s

/-- `STATE_OPR`, model1052.c 587-640. -/
def opr (s : S) (t : Tags) (bi : Nat) : Io :=
  let s := { s with request := false }
  let t := { t with sel := false }
  if t.adr then
    ({ s with dataEnd := true, cmdDone := true, dataRdy := false, status := s.status ||| (sChnEnd ||| sDevEnd), selected := false, st := .idle }, { t with oprIn := false }, bi)
  else if s.dataRdy then ({ s with st := .data1 }, t, bi)
  else if s.dataEnd || s.cmdDone then
    ({ endSignal { s with status := s.status ||| (sChnEnd ||| sDevEnd) } with st := .endStatus }, t, bi)
  else if t.hld = false then ({ s with selected := false, st := .idle }, { t with oprIn := false }, bi)
  else (s, t, bi)

/-- `STATE_DATA_1`, model1052.c 642-655. -/
def data1 (s : S) (t : Tags) (bi : Nat) : Res Io :=
  let t := { t with sel := false }
  if t.srv then .ok (s, t, bi)
  else if t.sup then .ok (s, t, bi)
  else (withPar s.data).bind (fun b => .ok ({ s with st := .data2 }, { t with srvIn := true }, b))

/-- Take the byte of a write command, model1052.c 664-676. -/
def takeByte (s : S) (bo : Nat) : S :=
  if parBad bo then { s with sense := s.sense ||| eBusChk, status := s.status ||| sUnitChk ||| (sChnEnd ||| sDevEnd), dataEnd := true, busy := false, cmdDone := true }
  else addEv { s with data := bo } .send

/-- `STATE_DATA_2`, model1052.c 657-684. -/
def data2 (s : S) (t : Tags) (bo : Nat) : Res Io :=
  (withPar s.data).bind (fun b =>
    let t := { t with sel := false }
    if t.srv || t.cmd then
      let s := { s with dataRdy := false }
      let s := if t.srv && tst s.cmd 1 then takeByte s bo else s
      let s := if t.cmd then { s with dataEnd := true, cmdDone := true } else s
      .ok ({ s with st := .opr }, { t with srvIn := false }, b)
    else .ok (s, t, b))

/-- `model1052_dev`, model1052.c 250-686. -/
def dev (s : S) (t : Tags) (bo bi : Nat) : Res Io :=
  if t.opr = false ∧ t.sup = false then
    .ok (reset s, if s.selected then { t with oprIn := false, adrIn := false, srvIn := false, staIn := false } else t, bi)
  else
    match s.st with
    | .idle => .ok (idle s t bo bi)
    | .initSel => .ok (initSel s t)
    | .command => .ok (command s t bo)
    | .status => status s t
    | .statusAccept => statusAccept s t
    | .statusWait => .ok (statusWait s t bi)
    | .busy => .ok (busyState s t)
    | .endStatus => endStatus s t bi
    | .endAccept => endAccept s t
    | .waitDevend => .ok (waitDevend s t bi)
    | .opr => .ok (opr s t bi)
    | .data1 => data1 s t bi
    | .data2 => data2 s t bo

/-- `model1052_init` or `model1052_create`, model1052.c 689-716, 1057-1110. -/
def init (addr : Nat) : S := { addr }

end Verif.Cons
