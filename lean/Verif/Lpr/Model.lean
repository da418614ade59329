import Verif.Bus.Model
/-
The 1443 printer, /repo/src/model1443/model1443.c and the keys of panel1443.c.

The output file is `none` (NULL) or the list of bytes written to it; `fwrite` always succeeds, and on NULL it is the
outcome `oob` as is every index outside an array.  Pending events are counted, without their delays.  Logging and the
picture of the paper (`output`, only drawn by panel1443.c 112-129, always indexed by constants or by a column below 120)
are dropped.  `chan`, `start`, `stop`, `single`, `form`, `fcb_num` are never read by the code modelled and are dropped.
-/
namespace Verif.Lpr
open Verif.Bus
open Verif.Card (Res look)

/-- `STATE_*`, model1443.c 59-75 (`STATE_OPR_REL` is never used). -/
inductive St where
  | idle | sel | cmd | initStat | opr | req | dataO | dataI | dataEnd | fin | stack | stackSel | stackCmd | stackSta | stackHld | wait
deriving DecidableEq, Repr

/-- `cctape_legacy`, model1443.c 78-86: the only carriage tape ever used. -/
def legacy : List Nat :=
  [0x800, 0, 0, 0, 0, 0, 0x400, 0, 0, 0, 0, 0, 0x200, 0, 0, 0, 0, 0, 0x100, 0, 0, 0, 0, 0, 0x080, 0, 0, 0, 0, 0, 0x040, 0, 0, 0, 0, 0,
   0x020, 0, 0, 0, 0, 0, 0x010, 0, 0, 0, 0, 0, 0x004, 0, 0, 0, 0, 0, 0x002, 0, 0, 0, 0, 0, 0x001, 0, 0x008, 0, 0, 0]

/-- `struct _1443_context`, model1443.h 41-72. -/
structure S where
  st : St := .idle
  addr : Nat
  selected : Bool := false
  request : Bool := false
  addressed : Bool := false
  stacked : Bool := false
  busyFlag : Bool := false
  sense : Nat := 0
  cmd : Nat := 0
  status : Nat := 0
  data : Nat := 0
  dataRdy : Bool := false
  dataEnd : Bool := false
  feedDone : Bool := false
  file : Option (List Nat) := none
  buf : List Nat := List.replicate 144 0
  col : Nat := 0
  row : Nat := 0
  lpp : Nat := 66
  ready : Bool := false
  cnt : Nat := 0
  fcb : List Nat := legacy
  /-- pending `done_callback` events -/
  evs : Nat := 0
deriving DecidableEq, Repr

/-- `SENSE_CHAN9`, model1443.c 56. -/
def eChan9 : Nat := 0x01

/-! ### Printing -/

/-- `fwrite(bs, 1, n, ctx->file)`. -/
def put (s : S) (bs : List Nat) : Res S :=
  match s.file with
  | none => .oob
  | some f => .ok { s with file := some (f ++ bs) }

/-- `isprint` in the C locale. -/
def isPrint (c : Nat) : Bool := 0x20 ≤ c && c ≤ 0x7e

/-- One column as it is printed, model1443.c 958-965. (`ebcdic_to_out[ch]` has as many entries as `ebcdic_to_ascii`.) -/
def glyph (v : Nat) : Res Nat := (look (Xlat.ebcdicToAscii v)).bind fun c => .ok (if isPrint c then c else 0x2e)

/-- The loop over the columns, `n` columns from `i` on, model1443.c 957-966; `out` has 150 entries, `buf` 144. -/
def chars (buf : List Nat) : Nat → Nat → Res (List Nat)
  | 0, _ => .ok []
  | n + 1, i =>
    (look buf[i]?).bind fun v => (glyph v).bind fun c =>
    if i < 150 then (chars buf n (i + 1)).bind fun cs => .ok (c :: cs) else .oob

/-- A line without its trailing blanks. -/
def trimTail (l : List Nat) : List Nat := (l.reverse.dropWhile (· == 0x20)).reverse

/-- `for (--i; i > 0 && out[i] == ' '; i--) ; out[++i] = 0`, model1443.c 968-970: the first column is never trimmed. -/
def trim : List Nat → List Nat
  | [] => []
  | c :: cs => c :: trimTail cs

/-- Printing the buffer, model1443.c 951-977.  `memset(ctx->buf, 0x40, ..)` sets every byte of the `int`s. -/
def printBuf (s : S) : Res S :=
  if s.cmd &&& 7 = 1 then
    (chars s.buf s.col 0).bind fun cs => (put s (trim cs)).bind fun s => .ok { s with buf := List.replicate 144 0x40404040 }
  else .ok s

/-- What spacing leaves: the printer, channel 9 and 12 seen, lines spaced. -/
structure Sp where
  s : S
  ch9 : Bool
  ch12 : Bool
  r : Nat

/-- The loop `while (l != 0)`, model1443.c 982-999. -/
def spaceLoop : Nat → Sp → Res Sp
  | 0, p => .ok p
  | l + 1, p =>
    (put p.s [13, 10]).bind fun s => (look s.fcb[s.row]?).bind fun v =>
    (if s.row + 1 > s.lpp then Res.ok else spaceLoop l)
      { s := { s with row := s.row + 1 }, ch9 := p.ch9 || tst v (0x1000 >>> 9), ch12 := p.ch12 || tst v (0x1000 >>> 12), r := p.r + 1 }

/-- The end of the page, model1443.c 1000-1007. -/
def pageEnd (p : Sp) : Res Sp :=
  if p.s.row > p.s.lpp then
    (if p.r = 0 then put p.s [13, 10] else .ok p.s).bind fun s => (put s [12]).bind fun s => .ok { p with s := { s with row := 0 } }
  else .ok p

/-- The two channel indications, model1443.c 1008-1014. -/
def indicate (p : Sp) : S :=
  let s := if p.ch9 = true ∧ p.s.cmd &&& 3 = 1 then { p.s with sense := p.s.sense ||| eChan9 } else p.s
  if p.ch12 = true ∧ s.cmd &&& 3 = 1 then { s with status := s.status ||| sUnitExp } else s

/-- What the search of the carriage tape leaves: the stop, lines passed, lines to space, forms passed. -/
structure Sk where
  i : Nat
  l : Nat
  r : Nat
  forms : Nat

/-- `for (i = row + 1; (fcb[i] & mask) == 0 && row != i; i++)`, model1443.c 1023-1034; the list is the tape from `i` on.
`forms` counts the times `"\r\n\f"` is written. -/
def skipScan (mask row lpp : Nat) : List Nat → Sk → Res Sk
  | [], _ => .oob
  | v :: vs, k =>
    if v &&& mask = 0 ∧ row ≠ k.i then
      skipScan mask row lpp vs
        (if k.i > lpp then { i := k.i + 1, l := k.l + 1, r := 0, forms := k.forms + 1 } else { k with i := k.i + 1, l := k.l + 1, r := k.r + 1 })
    else .ok k

/-- `while (r-- > 0)`, model1443.c 1042-1052. -/
def feedLoop : Nat → S → Res S
  | 0, s => .ok s
  | r + 1, s =>
    (put s [13, 10]).bind fun s =>
    (if s.row + 1 > s.lpp then (put s [12]).bind fun s => .ok { s with row := 0 } else .ok { s with row := s.row + 1 }).bind (feedLoop r)

/-- Skipping to a channel, model1443.c 1019-1055. -/
def skip (s : S) (l : Nat) : Res (S × Nat) :=
  let mask := 0x1000 >>> (l &&& 0xf)
  (skipScan mask s.row s.lpp (s.fcb.drop (s.row + 1)) ⟨s.row + 1, 0, 0, 0⟩).bind fun k =>
  (if k.forms = 0 then .ok s else put s (List.replicate k.forms [13, 10, 12]).flatten).bind fun s =>
  let s := if k.forms ≠ 0 then { s with row := 0 } else s
  (look s.fcb[k.i]?).bind fun v =>
  (if v &&& mask ≠ 0 then feedLoop k.r s else .ok s).bind fun s => .ok (s, k.l)

/-- `print_line`, model1443.c 936-1056: the printer and the result. -/
def printLine (s : S) : Res (S × Nat) :=
  (printBuf s).bind fun s1 =>
  let l := (s.cmd >>> 3) &&& 0x1f
  if l < 4 then
    (spaceLoop l ⟨s1, false, false, 0⟩).bind fun p => (pageEnd p).bind fun p =>
    .ok (indicate p, (if s.cmd &&& 7 = 1 then 11 else 0) + 20 + 5 * p.r)
  else skip s1 l

/-- `add_event(unit, done_callback, 2000 * print_line(ctx), NULL, 0)`: an event after no time fires at once,
event.c 47-51 and model1443.c 158-163. -/
def printEvent (s : S) : Res S :=
  (printLine s).bind fun r => .ok (if r.2 = 0 then { r.1 with feedDone := true } else { r.1 with evs := r.1.evs + 1 })

/-! ### The channel interface -/

/-- What a call of the bus function leaves: printer, tags, bus in. -/
abbrev Io := S × Tags × Nat

/-- Reset, model1443.c 176-194. -/
def reset (s : S) (t : Tags) (bi : Nat) : Io :=
  let t := if s.selected || s.addressed then { t with oprIn := false, adrIn := false, srvIn := false, staIn := false } else t
  let t := if s.request then { t with reqIn := false } else t
  ({ s with selected := false, addressed := false, stacked := false, request := false, status := 0, st := .idle, sense := 0, cmd := 0 }, t, bi)

/-- The four tag words of a selection, model1443.c 199-202 and 776-779. -/
def isSelect (t : Tags) : Bool :=
  t == { opr := true, sel := true, hld := true, adr := true } || t == { opr := true, sel := true, hld := true, adr := true, sup := true } ||
  t == { opr := true, sel := true, hld := true, adr := true, reqIn := true } || t == { opr := true, sel := true, hld := true, adr := true, sup := true, reqIn := true }

/-- Selection in `STATE_IDLE` or `STATE_STACK`, model1443.c 203-212, 780-789. -/
def select (s : S) (t : Tags) (bo : Nat) (nxt : St) : S × Tags :=
  ({ s with st := nxt, addressed := true, sense := if parBad bo then s.sense ||| eBusChk else s.sense }, { t with sel := false, oprIn := true })

/-- `STATE_IDLE`, model1443.c 197-213. -/
def idle (s : S) (t : Tags) (bo bi : Nat) : Io :=
  if isSelect t = true ∧ bo % 256 = s.addr then ((select s t bo .sel).1, (select s t bo .sel).2, bi) else (s, t, bi)

/-- `status = CHNEND|DEVEND|UNITCHK; sense = CMDREJ`. -/
def refuse (s : S) : S := { s with status := sChnEnd ||| sDevEnd ||| sUnitChk, sense := eCmdRej }

/-- The spacing or skipping field of a command is not one the printer has, model1443.c 272-286, 296-310. -/
def badMotion (c : Nat) : Bool :=
  (c &&& 0x80 != 0 && (c &&& 0x78 == 0 || decide (c &&& 0x78 > 0x60))) || (c &&& 0x80 == 0 && decide (c &&& 0x78 > 0x18))

/-- The `switch (ctx->cmd & 07)`, model1443.c 266-332. -/
def decode (s : S) : Res S :=
  match s.cmd &&& 7 with
  | 0 => .ok s
  | 1 => .ok (if badMotion s.cmd then { refuse s with cmd := 0 } else { s with sense := 0, dataRdy := true })
  | 2 => .ok (refuse s)
  | 3 =>
    if badMotion s.cmd then .ok { refuse s with cmd := 0 }
    else (printEvent { s with sense := 0 }).bind fun s => .ok { s with status := sChnEnd, dataEnd := true }
  | 4 => .ok (if s.cmd ≠ 4 then { refuse s with cmd := 0 } else { s with data := s.sense, dataRdy := true, dataEnd := true })
  | _ => .ok { refuse s with cmd := 0 }

/-- The command byte, model1443.c 250-338. -/
def command (s : S) (bo : Nat) : Res S :=
  let s := { s with cmd := bo % 256, dataRdy := false, dataEnd := false, col := 0, cnt := 0, feedDone := false, status := 0, st := .cmd }
  if s.ready = false ∨ s.file = none then .ok { s with sense := eInterv, status := sChnEnd ||| sDevEnd ||| sUnitChk }
  else (decode s).bind fun s =>
    .ok (if parBad bo then { s with cmd := 0, status := sChnEnd ||| sDevEnd ||| sUnitChk, sense := s.sense ||| eBusChk } else s)

/-- `STATE_SEL`, model1443.c 215-339. -/
def sel (s : S) (t : Tags) (bo bi : Nat) : Res Io :=
  let t := if s.addressed || s.selected then { t with sel := false, oprIn := true } else t
  if s.addressed = true ∧ t.adr = false ∧ t.cmd = false then
    .ok ({ s with selected := true, addressed := false }, { t with adrIn := true }, bytePar s.addr)
  else if s.selected = true ∧ t.adr = false ∧ t.cmd = false then .ok (s, { t with adrIn := true }, bytePar s.addr)
  else if s.selected = true ∧ t.adr = true then
    .ok ({ s with selected := false, st := .idle }, { t with sel := false, adrIn := false, oprIn := false }, bi)
  else if s.selected = true ∧ t.cmd = true then (command s bo).bind fun s => .ok (s, { t with adrIn := false }, bi)
  else .ok (s, t, bi)

/-- `STATE_CMD`, model1443.c 341-377. -/
def cmdSt (s : S) (t : Tags) (bi : Nat) : Res Io :=
  if s.selected then
    let t := { t with sel := false, oprIn := true }
    if t.cmd = true ∧ t.staIn = true then .ok ({ s with st := .stack, stacked := true, selected := false }, { t with staIn := false, oprIn := false }, bi)
    else if t.cmd then .ok (s, t, bi)
    else (withPar s.status).bind fun b =>
      if t.srv then .ok ({ s with st := .initStat }, { t with staIn := false }, b) else .ok (s, { t with staIn := true }, b)
  else .ok (s, t, bi)

/-- `STATE_INIT_STAT`, model1443.c 379-424. -/
def initStat (s : S) (t : Tags) (bi : Nat) : Io :=
  if s.selected then
    let t := { t with sel := false, oprIn := true }
    if t.srv then (s, t, bi)
    else if s.cmd = 0 ∨ s.status &&& (sUnitChk ||| sUnitExp) ≠ 0 then
      ({ s with st := .idle, selected := false, addressed := false }, { t with oprIn := false }, bi)
    else if s.status &&& sChnEnd ≠ 0 then
      ({ s with status := s.status &&& 0xf7, selected := false, addressed := false, st := .wait }, { t with oprIn := false, sel := false }, bi)
    else if t.hld = false ∧ s.dataRdy = false ∧ s.cmd ≠ 4 then
      ({ s with selected := false, addressed := false, st := .opr }, { t with oprIn := false }, bi)
    else ({ s with st := .opr }, t, bi)
  else ({ s with st := .opr }, t, bi)

/-- The end of the data seen in `STATE_OPR`, model1443.c 488-506. -/
def oprEnd (s : S) : Res S :=
  let s := if s.cmd = 4 then { s with status := sChnEnd ||| sDevEnd } else s
  (if s.cmd &&& 7 = 1 then (printEvent s).bind fun s => .ok { s with status := s.status ||| sChnEnd } else .ok s).bind fun s =>
  .ok { s with st := if s.status &&& sDevEnd ≠ 0 then .fin else if s.status &&& sChnEnd ≠ 0 then .dataEnd else s.st }

/-- The data part of `STATE_OPR`, model1443.c 481-508. -/
def oprData (s : S) (t : Tags) (bi : Nat) : Res Io :=
  if s.dataRdy then .ok ({ s with st := if tst s.cmd 1 then .dataI else .dataO }, t, bi)
  else if s.dataEnd then (oprEnd s).bind fun s => .ok (s, t, bi)
  else .ok (s, t, bi)

/-- `STATE_OPR`, model1443.c 426-508. -/
def opr (s : S) (t : Tags) (bo bi : Nat) : Res Io :=
  let t := if s.selected then { t with sel := false } else t
  if s.selected = false ∧ t = { opr := true, sel := true, hld := true, adr := true } ∧ bo % 256 = s.addr then
    .ok ({ s with selected := true, addressed := true }, { t with sel := false, staIn := true }, sBusy)
  else if s.selected = true ∧ t = { opr := true, hld := true, adr := true, oprIn := true } ∧ bo % 256 = s.addr then
    .ok ({ s with dataEnd := true, dataRdy := false, selected := false }, { t with oprIn := false }, bi)
  else if s.selected = true ∧ t = { opr := true, hld := true, adr := true, staIn := true } then .ok (s, { t with staIn := true }, sBusy)
  else if s.selected = true ∧ (t = { opr := true, hld := true, staIn := true } ∨ t = { opr := true, staIn := true }) then
    .ok ({ s with selected := false }, { t with staIn := false }, bi)
  else oprData s t bi

/-- The state after the printer has the bus, model1443.c 550-554. -/
def reqNext (s : S) : St :=
  if s.dataEnd then (if s.status &&& sDevEnd ≠ 0 then .fin else .dataEnd) else (if tst s.cmd 1 then .dataI else .dataO)

/-- `STATE_REQ`, model1443.c 510-586. -/
def req (s : S) (t : Tags) (bi : Nat) : Io :=
  if t = { opr := true, sel := true, hld := true, sup := true, reqIn := true } ∨ t = { opr := true, sel := true, hld := true, reqIn := true } then
    ({ s with addressed := true }, { t with sel := false, reqIn := false, oprIn := true, adrIn := true }, bytePar s.addr)
  else if t = { opr := true, sel := true, hld := true, sup := true, oprIn := true, adrIn := true } ∨ t = { opr := true, sel := true, hld := true, oprIn := true, adrIn := true } then
    ({ s with request := false, addressed := true }, { t with sel := false, oprIn := true, adrIn := true }, bytePar s.addr)
  else if s.request = true ∧ (t = { opr := true, sel := true, hld := true, sup := true, adr := true, reqIn := true } ∨ t = { opr := true, sel := true, hld := true, adr := true, reqIn := true }) then
    ({ s with request := false }, { t with reqIn := false }, bi)
  else if s.addressed = true ∧ t.cmd = true then
    ({ s with selected := true, addressed := false, st := reqNext s }, { t with sel := false, adrIn := false }, bi)
  else if s.addressed then
    ({ s with request := false }, { t with sel := false, oprIn := true, adrIn := true, reqIn := if s.request then false else t.reqIn }, bytePar s.addr)
  else if t.oprIn || t.staIn then
    ({ s with request := false }, { t with reqIn := if s.request then false else t.reqIn }, bi)
  else ({ s with request := true }, { t with reqIn := true }, bi)

/-- The byte taken by `STATE_DATA_I`, model1443.c 601-630.  Select out was dropped before, so operational in is dropped
after every third byte. -/
def take (s : S) (t : Tags) (bo bi : Nat) : Res Io :=
  let t := { t with srvIn := false }
  if parBad bo then .ok ({ s with dataRdy := false, sense := s.sense ||| eBusChk, status := sChnEnd ||| sDevEnd ||| sUnitChk, st := .fin }, t, bi)
  else if s.col < s.buf.length then
    let s := { s with data := bo, st := .initStat, buf := s.buf.set s.col (bo % 256), col := s.col + 1, cnt := s.cnt + 1, dataRdy := true }
    let r := if s.cnt = 3 then ({ s with cnt := 0, selected := false }, { t with oprIn := false }) else (s, t)
    .ok (if r.1.col = 120 then { r.1 with dataRdy := false, dataEnd := true } else r.1, r.2, bi)
  else .oob

/-- `STATE_DATA_I`, model1443.c 588-647. -/
def dataI (s : S) (t : Tags) (bo bi : Nat) : Res Io :=
  if s.selected = false then .ok ({ s with st := .req }, t, bi)
  else
    let t := { t with oprIn := true, srvIn := true, sel := false }
    if t.srv then take s t bo bi
    else if t.cmd then .ok ({ s with dataRdy := false, dataEnd := true, st := .initStat }, { t with srvIn := false }, bi)
    else .ok (s, t, bi)

/-- `STATE_DATA_O`, model1443.c 649-676. -/
def dataO (s : S) (t : Tags) (bi : Nat) : Res Io :=
  if s.selected = false then .ok ({ s with st := .req }, t, bi)
  else (withPar s.data).bind fun b =>
    let t := { t with sel := false, oprIn := true, srvIn := true }
    let s := if t.srv then { s with dataRdy := false, st := .initStat } else s
    let s := if t.cmd then { s with dataRdy := false, dataEnd := true, st := .initStat } else s
    .ok (s, if t.srv || t.cmd then { t with srvIn := false } else t, b)

/-- `STATE_DATA_END`, model1443.c 678-717. -/
def dataEnd (s : S) (t : Tags) (bi : Nat) : Res Io :=
  if s.selected = false then .ok ({ s with st := .req }, t, bi)
  else (withPar s.status).bind fun b =>
    let t := { t with sel := false, oprIn := true }
    if t.srv = true ∧ t.staIn = false then .ok (s, t, b)
    else if t.srv = false then .ok (s, { t with staIn := true }, b)
    else
      .ok ({ s with selected := if t.hld then s.selected else false, stacked := if t.cmd then true else s.stacked,
                    status := s.status &&& 0xf7, st := .wait }, { t with oprIn := false, staIn := false }, b)

/-- `STATE_END`, model1443.c 719-772. -/
def endSt (s : S) (t : Tags) (bi : Nat) : Res Io :=
  if s.selected = false then .ok ({ s with st := .req }, t, bi)
  else
    let t := { t with sel := false, oprIn := true }
    if t.srv = true ∧ t.staIn = false then .ok (s, t, bi)
    else
      let s := if s.busyFlag then { s with status := s.status ||| sCtlEnd } else s
      (withPar s.status).bind fun b =>
      if t.srv = false ∧ t.staIn = false then
        .ok ({ s with status := if s.sense ≠ 0 then s.status ||| sUnitChk else s.status, cmd := 0 }, { t with staIn := true }, b)
      else if t.srv then .ok ({ s with selected := false, busyFlag := false, st := .idle }, { t with oprIn := false, staIn := false }, b)
      else if t.cmd then .ok ({ s with selected := false, stacked := true, st := .stack }, { t with oprIn := false, staIn := false }, b)
      else .ok (s, t, b)

/-- `STATE_STACK`, model1443.c 774-796. -/
def stack (s : S) (t : Tags) (bo bi : Nat) : Io :=
  let r := if isSelect t = true ∧ bo % 256 = s.addr then select s t bo .stackSel else (s, t)
  (if r.1.stacked = true ∧ r.1.feedDone = true ∧ r.2 = { opr := true } then { r.1 with st := .req } else r.1, r.2, bi)

/-- `STATE_STACK_SEL`, model1443.c 798-830. -/
def stackSel (s : S) (t : Tags) (bo bi : Nat) : Io :=
  let t := if s.addressed || s.selected then { t with sel := false, oprIn := true } else t
  if s.addressed = true ∧ t.adr = false ∧ t.cmd = false then
    ({ s with addressed := false, selected := true }, { t with adrIn := true }, bytePar s.addr)
  else if s.selected then
    if t.cmd then
      ({ s with st := .stackCmd, status := if parBad bo then sChnEnd ||| sDevEnd ||| sUnitChk else s.status, sense := if parBad bo then s.sense ||| eBusChk else s.sense },
        { t with sel := false, adrIn := false }, bytePar s.addr)
    else (s, t, bytePar s.addr)
  else (s, t, bi)

/-- `STATE_STACK_CMD`, model1443.c 832-844: `(*tags == CHAN_CMD_OUT) == 0` always holds, operational in being up. -/
def stackCmd (s : S) (t : Tags) : Res Io :=
  (withPar s.status).bind fun b => .ok ({ s with st := .stackSta }, { t with sel := false, oprIn := true, staIn := true }, b)

/-- `STATE_STACK_STA`, model1443.c 846-865. -/
def stackSta (s : S) (t : Tags) : Res Io :=
  (withPar s.status).bind fun b =>
  let t := { t with sel := false, oprIn := true }
  if t.srv || t.cmd then
    let s := if t.cmd then { s with stacked := true } else s
    let s := if t.srv then { s with stacked := false, status := s.status &&& 0xf7 } else s
    .ok ({ s with st := .stackHld }, { t with staIn := false }, b)
  else .ok (s, t, b)

/-- `STATE_STACK_HLD`, model1443.c 867-887. -/
def stackHld (s : S) (t : Tags) (bi : Nat) : Io :=
  let t := { t with sel := false, oprIn := true }
  if t.cmd = false ∧ t.srv = false then
    ({ s with st := if s.stacked then (if s.feedDone then .stack else .wait) else .idle, selected := false }, { t with oprIn := false }, bi)
  else (s, t, bi)

/-- The busy answer in `STATE_WAIT`, model1443.c 889-918: selection, status while hold out is up. -/
def waitBusy (s : S) (t : Tags) (bo bi : Nat) : Io :=
  let s := if s.selected = false ∧ (t = { opr := true, sel := true, hld := true, adr := true } ∨ t = { opr := true, sel := true, hld := true, sup := true, adr := true }) ∧ bo % 256 = s.addr
    then { s with busyFlag := true, addressed := true } else s
  if s.addressed then
    if t.hld then (s, { t with sel := false, staIn := true }, 0x100 ||| sSms ||| sBusy)
    else ({ s with addressed := false }, { t with sel := false, staIn := false }, 0x100 ||| sSms ||| sBusy)
  else (s, t, bi)

/-- `STATE_WAIT`, model1443.c 889-925. -/
def wait (s : S) (t : Tags) (bo bi : Nat) : Io :=
  let r := waitBusy s t bo bi
  (if r.1.feedDone then { r.1 with status := r.1.status ||| sDevEnd, st := .fin } else r.1, r.2.1, r.2.2)

/-- `model1443_dev`, model1443.c 165-930. -/
def dev (s : S) (t : Tags) (bo bi : Nat) : Res Io :=
  if t.opr = false ∧ t.sup = false then .ok (reset s t bi)
  else match s.st with
    | .idle => .ok (idle s t bo bi)
    | .sel => sel s t bo bi
    | .cmd => cmdSt s t bi
    | .initStat => .ok (initStat s t bi)
    | .opr => opr s t bo bi
    | .req => .ok (req s t bi)
    | .dataI => dataI s t bo bi
    | .dataO => dataO s t bi
    | .dataEnd => dataEnd s t bi
    | .fin => endSt s t bi
    | .stack => .ok (stack s t bo bi)
    | .stackSel => .ok (stackSel s t bo bi)
    | .stackCmd => stackCmd s t
    | .stackSta => stackSta s t
    | .stackHld => .ok (stackHld s t bi)
    | .wait => .ok (wait s t bo bi)

/-! ### Keys and events -/

/-- `done_callback`, model1443.c 158-163, when an event is pending. -/
def fire (s : S) : S := if s.evs = 0 then s else { s with evs := s.evs - 1, feedDone := true }

/-- The keys of the panel, panel1443.c 138-214; `paper` gives the content of the file opened, if it opens. -/
inductive Key where
  | start | checkReset | stop | space | restore | single | paper (f : Option (List Nat))

/-- `print_line` from the panel with command `c`, panel1443.c 169-183. -/
def panelPrint (s : S) (c : Nat) : Res S :=
  if s.ready = false then (printLine { s with cmd := c }).bind fun r => .ok { r.1 with cmd := 0 } else .ok s

/-- `model1443_update`, panel1443.c 138-216. -/
def key (s : S) : Key → Res S
  | .start => .ok (if s.st = .idle ∧ s.file ≠ none then { s with status := s.status ||| sDevEnd, dataEnd := true, ready := true } else s)
  | .checkReset => .ok (if s.st = .idle then { s with sense := 0 } else s)
  | .stop => .ok { s with ready := false }
  | .space => panelPrint s 0x0b
  | .restore => panelPrint s 0x8b
  | .single => .ok (if s.st = .idle ∧ s.file ≠ none then { s with ready := true } else s)
  | .paper f => .ok (match f with | none => { s with file := none } | some _ => { s with file := f, row := 0 })

/-- `model1443_create`, model1443.c 1058-1128: `FILE` with the content of the file, `START`. -/
def create (addr : Nat) (file : Option (List Nat)) (start : Bool) : S :=
  { addr := addr % 256, file := file, ready := start && file.isSome }

end Verif.Lpr
