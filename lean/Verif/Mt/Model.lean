import Verif.Bus.Model
import Verif.Tape.Model
/-!
# Model of the 2415 tape control (`/repo/src/model2415/model2415.c`, keys of `panel2415.c`)

The control with its up to six drives, the three callbacks, the bus function and the operator's keys.  The drives are
`Verif.Tape.Tape` values and every access to a tape is a call of the tape layer model.

Simplifications.  Log output, the picture of the reels and the `SELECTED` lamp are left out.  The time of an event is
left out: a pending event may be taken at any moment (the theorems about all histories therefore hold for every timing).
Fields that are written but never read (`data_end_post`, `ctrl_busy`, `delay`, `rew_delay`, `nunits`, `stk_unit`, and
the copies of `selected`, `request`, `stacked`, `addr` inside the context) are left out.  `oob` is an access outside
`tape[6]` or `odd_parity[256]` or through a null `tape[u]` or null file name.  Opening a file never fails.
-/
namespace Verif.Mt
open Verif.Bus
open Verif.Card (Res)
open Verif.Tape (Tape St Fmt)

/-- One drive: `struct _tape_buffer` with the bits of `format` the tape layer model leaves out.  `fdOk` is `fd >= 0`.
`ATTACHED` is set and cleared together with `file_name` (tape.c 146-150, 174-177), so it is `t.b.opened`. -/
structure Drive where
  t : Tape
  track9 : Bool
  online : Bool
  fdOk : Bool

/-- Pending events: `model2415_rewind_callback`, `done_callback`, `tape_callback`, with the number of the unit. -/
inductive Ev where
  | rewind (u : Nat)
  | done (u : Nat)
  | tape (u : Nat)
deriving DecidableEq, Repr

/-- `struct _2415_context`, model2415.h 81-122, and the fields of `struct _device` the code uses.  The flag words are
functions from unit numbers.  `statUnit = none` is `stat_unit == -1`.  Sense bytes 4 and 5 are always 0. -/
structure S where
  addr : Nat
  st : DState
  selected : Bool
  request : Bool
  stacked : Bool
  drives : List (Option Drive)
  se0 : Nat
  se1 : Nat
  se2 : Nat
  se3 : Nat
  senseCnt : Nat
  busyFlag : Bool
  chaining : Bool
  cmd : Nat
  cmdDone : Bool
  status : Nat
  data : Nat
  cbuffer : Nat
  dataRdy : Bool
  dataEnd : Bool
  curUnit : Nat
  statUnit : Option Nat
  tScan : Nat
  rew : Nat → Bool
  run : Nat → Bool
  rdy : Nat → Bool
  mrk : Nat → Bool
  cc : Nat
  mode7 : Nat
  mode9 : Nat
  evs : List Ev

/-- `flags |= 1 << u` and `flags &= ~(1 << u)`. -/
def upd (f : Nat → Bool) (u : Nat) (b : Bool) : Nat → Bool := fun v => if v = u then b else f v

/-- Sense byte 0 bits of this control, model2415.c 81-82. -/
def eWcZero : Nat := 0x02
def eDcChk : Nat := 0x01

/-- Sense byte 1 bits, model2415.c 85-91. -/
def eNoise : Nat := 0x80
def eTua : Nat := 0x40
def eTub : Nat := 0x20
def e7Track : Nat := 0x10
def eLoad : Nat := 0x08
def eWrite : Nat := 0x04
def eNoRing : Nat := 0x02

/-- Sense byte 3 bits, model2415.c 97-98. -/
def eVcr : Nat := 0x80
def eLrcr : Nat := 0x40

/-- Tape mode bits, model2415.c 134-136. -/
def mtOdd : Nat := 1
def mtTrans : Nat := 2
def mtConv : Nat := 4

/-- A drive as it is created, model2415.c 1356-1357: `calloc` and `format = TRACK9` (`TRACK9` cleared for 7TRACK,
1390-1392). -/
def newDrive (track9 : Bool) : Drive :=
  { t := { b := { opened := false, writable := false, file := [], pos := 0, posBuff := 0, lenBuff := 0, dirty := false,
                  eot := false, bot := false, buffer := List.replicate Tape.W 0 }
           fmt := .tap, ring := false, den1600 := false, mark := false, func := .none, posFrame := 0, lrecl := 0,
           orecl := 0, parity := false, srec := 0 }
    track9 := track9, online := false, fdOk := true }

/-- tape_attach, tape.c 128-152: the tape layer part, `ONLINE` set, descriptor open. -/
def mount (d : Drive) (file : List Nat) (f : Fmt) (ring den : Bool) : Drive :=
  { d with t := Tape.attach d.t file f ring den, online := true, fdOk := true }

/-- tape_detach, tape.c 161-178. -/
def unmount (d : Drive) : Drive := { d with t := Tape.detach d.t, online := false, fdOk := false }

/-- tape_ready, tape.c 66-70. -/
def ready (d : Drive) : Bool := d.t.b.opened && d.online

/-- model2415_create, model2415.c 1402-1456, with the drives the following `2415U` lines create (1348-1401). -/
def create (addr : Nat) (drives : List (Option Drive)) : S :=
  { addr := addr, st := .idle, selected := false, request := false, stacked := false, drives := drives, se0 := 0,
    se1 := 0, se2 := 0, se3 := 0, senseCnt := 0, busyFlag := false, chaining := false, cmd := 0, cmdDone := false,
    status := 0, data := 0, cbuffer := 0, dataRdy := false, dataEnd := false, curUnit := 0, statUnit := some 0,
    tScan := 0, rew := fun _ => false, run := fun _ => false, rdy := fun _ => false, mrk := fun _ => false, cc := 0,
    mode7 := 0, mode9 := 0, evs := [] }

/-! ## Access to the drives -/

/-- A call of the tape layer: an endless loop is `fuel`. -/
def up {α : Type} : Tape.Res α → Res α
  | .ok a => .ok a
  | .oob => .oob
  | .hang => .fuel

/-- `ctx->tape[u]`, read as a pointer that must not be null. -/
def drive (s : S) (u : Nat) : Res Drive :=
  match s.drives[u]? with
  | some (some d) => .ok d
  | _ => .oob

/-- The drive `u` is changed. -/
def setDrive (s : S) (u : Nat) (d : Drive) : S := { s with drives := s.drives.set u (some d) }

/-- The tape of drive `u` is changed. -/
def setTape (s : S) (u : Nat) (d : Drive) (t : Tape) : S := setDrive s u { d with t := t }

/-- `tape_9_track(ctx->tape[u])`, tape.c 84-88: false for a null pointer. -/
def nine (s : S) (u : Nat) : Res Bool :=
  match s.drives[u]? with
  | some (some d) => .ok d.track9
  | some none => .ok false
  | none => .oob

/-- `add_event`. -/
def addEv (s : S) (e : Ev) : S := { s with evs := s.evs ++ [e] }

/-! ## Callbacks -/

/-- Load point reached, model2415.c 148-166 and 174-190. -/
def rewound (s : S) (u : Nat) (d : Drive) : S :=
  if s.run u then { setDrive s u (unmount d) with rew := upd s.rew u false, run := upd s.run u false }
  else if s.curUnit = u ∧ s.st ≠ .idle then
    { s with rew := upd s.rew u false, status := (s.status ||| sDevEnd) &&& 0xdd, cmd := 0, cmdDone := true }
  else { s with rew := upd s.rew u false, rdy := upd s.rdy u true }

/-- model2415_rewind_callback, model2415.c 137-194: one frame at a time in the first 96000 frames, 3840 above. -/
def rewindCb (s : S) (u : Nat) : Res S :=
  (drive s u).bind fun d =>
  (.ok (Tape.rewindFrames d.t (if d.t.posFrame ≤ 96000 then 1 else 3840)) : Res (St × Tape)).bind fun r =>
  .ok (if r.1 = .bot then rewound (setTape s u d r.2) u { d with t := r.2 }
       else addEv (setTape s u d r.2) (.rewind u))

/-- done_callback, model2415.c 196-207. -/
def doneCb (s : S) (u : Nat) : S :=
  { s with cmdDone := true, rdy := if s.cmd &&& 3 = 3 then upd s.rdy u true else s.rdy, status := s.status ||| sDevEnd }

/-- The entry of `parity_table` or'ed into a six bit frame, model2415.c 256-257, 309-310.  `mode` is a `uint8_t`, so the
value 0x100 it is given for even parity is 0. -/
def frame7 (x : Nat) : Nat := (x &&& 0o77) ||| parityTab.getD (x &&& 0o77) 0

/-- The last frame of a converted record, model2415.c 231-261. -/
def convLast (s : S) : S :=
  match s.cc with
  | 1 => { s with data := frame7 ((s.cbuffer &&& 3) <<< 4) }
  | 2 => { s with data := frame7 ((s.cbuffer &&& 0xf) <<< 2), dataRdy := true }
  | 3 => { s with data := frame7 (s.cbuffer % 256), dataRdy := true }
  | _ => { s with data := frame7 s.data }

/-- model2415.c 228-264: the record is closed. -/
def writeEnd (fuel junk : Nat) (s : S) (u : Nat) : Res S :=
  (nine s s.curUnit).bind fun n =>
  (drive s u).bind fun d =>
  (.ok (if n = false ∧ tst s.mode7 mtConv then convLast s else s) : Res S).bind fun s =>
  (if n = false ∧ tst s.mode7 mtConv ∧ s.dataRdy then up (Tape.writeFrame d.t s.data) else .ok (.ok, d.t)).bind fun r =>
  (up (Tape.finishRec fuel junk r.2)).bind fun r => .ok (addEv (setTape s u d r.2) (.done u))

/-- The data converter on output, model2415.c 275-307. -/
def convOut (s : S) : S :=
  if tst s.mode7 mtConv then
    match s.cc with
    | 0 => { s with cbuffer := s.data &&& 3, data := s.data >>> 2, dataRdy := true, cc := 1 }
    | 1 => { s with cbuffer := s.data &&& 0xf, data := (((s.cbuffer % 256) <<< 4) ||| ((s.data >>> 4) &&& 0xf)) % 256,
                    dataRdy := true, cc := 2 }
    | 2 => { s with cbuffer := s.data &&& 0o77, data := (((s.cbuffer % 256) <<< 2) ||| ((s.data >>> 6) &&& 3)) % 256,
                    dataRdy := true, cc := 3 }
    | 3 => { s with data := s.cbuffer % 256, dataRdy := true, cc := 0 }
    | _ => s
  else s

/-- Seven track output, model2415.c 269-310: nothing is written to the tape here. -/
def out7 (s : S) : S :=
  (fun s : S => { s with data := frame7 s.data })
    (convOut (if tst s.mode7 mtTrans then
      { s with data := ((s.data &&& 0x30) ^^^ 0x30) ||| (s.data &&& 0xf), dataRdy := true } else s))

/-- The write command, model2415.c 225-321. -/
def writeCb (fuel junk : Nat) (s : S) (u : Nat) : Res S :=
  if s.dataEnd then writeEnd fuel junk s u
  else if s.dataRdy = false then
    (nine s s.curUnit).bind fun n =>
    (.ok { s with se0 := s.se0 &&& 0xfd } : Res S).bind fun s =>
    if n = false then .ok (addEv (out7 s) (.tape u))
    else (drive s u).bind fun d =>
      (up (Tape.writeFrame d.t s.data)).bind fun r => .ok (addEv { setTape s u d r.2 with dataRdy := true } (.tape u))
  else .ok (addEv { s with se0 := s.se0 ||| eOvrRun, dataEnd := true } (.tape u))

/-- The end of a converted record on input, model2415.c 360-389. -/
def convEnd (s : S) : S :=
  match s.cc with
  | 0 => { s with cbuffer := s.data, dataRdy := true }
  | 1 => { s with cbuffer := s.cbuffer >>> 8, data := (s.cbuffer >>> 8) &&& 0x0f, dataRdy := true }
  | 2 => { s with cbuffer := s.cbuffer >>> 8, data := (s.cbuffer >>> 8) &&& 0x03, dataRdy := true }
  | _ => s

/-- The data converter on input, model2415.c 411-446. -/
def convIn (s : S) : S :=
  match s.cc with
  | 0 => { s with cbuffer := s.data, cc := 1 }
  | 1 => { s with cbuffer := (s.cbuffer ||| (s.data <<< 6)) % 65536,
                  data := (s.cbuffer ||| (s.data <<< 6)) &&& 0xff, dataRdy := true, cc := 2 }
  | 2 => { s with cbuffer := ((s.cbuffer >>> 8) ||| (s.data <<< 4)) % 65536,
                  data := ((s.cbuffer >>> 8) ||| (s.data <<< 4)) &&& 0xff, dataRdy := true, cc := 3 }
  | 3 => { s with cbuffer := ((s.cbuffer >>> 8) ||| (s.data <<< 2)) % 65536,
                  data := ((s.cbuffer >>> 8) ||| (s.data <<< 2)) &&& 0xff, dataRdy := true, cc := 0 }
  | _ => s

/-- Parity check, translation and conversion of a seven track frame, model2415.c 401-446.  `mode` is 0 as above. -/
def in7 (s : S) : S :=
  (fun s : S => if tst s.mode7 mtConv then convIn s else s)
    ((fun s : S => { s with data := if tst s.mode7 mtTrans then bcdToEbcdicTab.getD (s.data &&& 0o77) 0 else s.data &&& 0o77 })
      (if parityTab.getD (s.data &&& 0o77) 0 ^^^ (s.data &&& 0o100) = 0 then { s with se0 := eDcChk, se3 := eVcr } else s))

/-- model2415.c 334-346: the channel wants no more. -/
def readSkip (fuel junk : Nat) (s : S) (u : Nat) : Res S :=
  (drive s u).bind fun d =>
  (up (Tape.readFrame d.t s.data)).bind fun r =>
  if r.1 ≠ .ok then
    (up (Tape.finishRec fuel junk r.2.2)).bind fun q =>
    .ok (addEv { setTape s u d q.2 with data := r.2.1 % 256, status := s.status ||| sChnEnd } (.done u))
  else .ok (addEv { setTape s u d r.2.2 with data := r.2.1 % 256 } (.tape u))

/-- model2415.c 353-450: what follows a frame, by the status of the tape layer; the tape is already moved and the byte
is in `data`. -/
def readNext (s : S) (u : Nat) (n : Bool) : St → S
  | .eot | .bot | .eob =>
    (fun s : S => { s with dataEnd := true })
      (if n = false ∧ tst s.mode7 mtConv then convEnd (addEv s (.tape u)) else addEv s (.tape u))
  | .mark => addEv { s with dataEnd := true, mrk := upd s.mrk s.curUnit true, status := s.status ||| (sUnitExp ||| sChnEnd) } (.done u)
  | .ok => if n then { addEv s (.tape u) with dataRdy := true } else in7 (addEv s (.tape u))
  | _ => s

/-- The read commands, model2415.c 322-454. -/
def readCb (fuel junk : Nat) (s : S) (u : Nat) : Res S :=
  if s.dataEnd then readSkip fuel junk s u
  else if s.dataRdy then
    .ok (addEv { s with dataEnd := true, se0 := s.se0 ||| eOvrRun, status := s.status ||| (sChnEnd ||| sUnitChk) } (.done u))
  else
    (drive s u).bind fun d =>
    (nine s s.curUnit).bind fun n =>
    (up (Tape.readFrame d.t s.data)).bind fun r =>
    .ok (readNext { setTape s u d r.2.2 with data := r.2.1 % 256 } u n r.1)

/-- The end of a block while spacing, model2415.c 504-535. -/
def spaceEob (fuel junk : Nat) (s : S) (u : Nat) (d : Drive) : Res S :=
  (up (Tape.finishRec fuel junk d.t)).bind fun r =>
  if Tape.atLoadpt r.2 then .ok (addEv { setTape s u d r.2 with status := s.status ||| sUnitChk } (.done u))
  else if tst s.cmd 8 then
    (up (if tst s.cmd 0x10 then Tape.readForw r.2 else Tape.readBack r.2)).bind fun q =>
    .ok (if q.1 = .fileError then addEv { setTape s u d q.2 with status := s.status ||| sUnitChk } (.done u)
         else if q.1 = .ok then addEv (setTape s u d q.2) (.tape u)
         else addEv (setTape s u d q.2) (.done u))
  else if r.1 = .mark then .ok (addEv { setTape s u d r.2 with status := s.status ||| sUnitExp } (.done u))
  else .ok (addEv (setTape s u d r.2) (.done u))

/-- The spacing commands, model2415.c 490-551. -/
def spaceCb (fuel junk : Nat) (s : S) (u : Nat) : Res S :=
  (drive s u).bind fun d =>
  (up (Tape.readFrame d.t s.data)).bind fun r =>
  (.ok { setTape s u d r.2.2 with data := r.2.1 % 256 } : Res S).bind fun s =>
  match r.1 with
  | .fileError => .ok (addEv { s with status := s.status ||| sUnitChk } (.done u))
  | .eob => spaceEob fuel junk s u { d with t := r.2.2 }
  | .mark =>
    (up (Tape.finishRec fuel junk r.2.2)).bind fun q =>
    .ok (if tst s.cmd 8 then addEv (setTape s u d q.2) (.done u)
         else addEv { setTape s u d q.2 with mrk := upd s.mrk s.curUnit true, status := s.status ||| sUnitExp } (.done u))
  | .ok => .ok (addEv s (.tape u))
  | _ => .ok s

/-- The control commands, model2415.c 456-553. -/
def motionCb (fuel junk : Nat) (s : S) (u : Nat) : Res S :=
  if s.cmd % 256 = 0x0f then
    (drive s u).bind fun d =>
    .ok { addEv (setTape s u d (Tape.startRewind d.t).2) (.rewind u) with
          dataEnd := true, cmdDone := true, rew := upd s.rew s.curUnit true, run := upd s.run s.curUnit true,
          status := sCtlEnd ||| sDevEnd ||| sUnitChk, cmd := 0 }
  else if s.cmd % 256 = 0x07 then
    (drive s u).bind fun d =>
    (.ok { addEv (setTape s u d (Tape.startRewind d.t).2) (.rewind u) with
           rew := upd s.rew s.curUnit true, dataEnd := true } : Res S).bind fun s =>
    .ok (if s.chaining = false then { s with cmdDone := true, status := s.status ||| sDevEnd, cmd := 0 } else s)
  else if s.cmd % 256 = 0x17 then .ok (addEv s (.done u))
  else if s.cmd % 256 = 0x1f then
    (drive s u).bind fun d => (up (Tape.writeMark d.t)).bind fun r => .ok (addEv (setTape s u d r.2) (.done u))
  else if s.cmd % 256 = 0x37 ∨ s.cmd % 256 = 0x3f ∨ s.cmd % 256 = 0x27 ∨ s.cmd % 256 = 0x2f then spaceCb fuel junk s u
  else .ok s

/-- tape_callback, model2415.c 209-558. -/
def tapeCb (fuel junk : Nat) (s : S) (u : Nat) : Res S :=
  if s.cmd % 16 = 1 ∨ s.cmd % 16 = 5 ∨ s.cmd % 16 = 9 ∨ s.cmd % 16 = 13 then writeCb fuel junk s u
  else if s.cmd % 16 = 2 ∨ s.cmd % 16 = 6 ∨ s.cmd % 16 = 10 ∨ s.cmd % 16 = 14 ∨ s.cmd % 16 = 12 then readCb fuel junk s u
  else if s.cmd % 16 = 7 ∨ s.cmd % 16 = 15 then motionCb fuel junk s u
  else .ok s

/-- A pending event is taken from the list and its callback is called. -/
def callback (fuel junk : Nat) (s : S) : Ev → Res S
  | .rewind u => rewindCb s u
  | .done u => .ok (doneCb s u)
  | .tape u => tapeCb fuel junk s u

/-- The event at place `i` of the list becomes due. -/
def fire (fuel junk : Nat) (s : S) (i : Nat) : Res S :=
  match s.evs[i]? with
  | none => .ok s
  | some e => callback fuel junk { s with evs := s.evs.eraseIdx i } e

/-! ## Commands -/

/-- Sense byte 1 from the drive, model2415.c 584-601. -/
def sense1 (s : S) : Option Drive → Nat
  | none => 0
  | some d =>
    if ready d then
      eTua ||| (if s.rew s.curUnit || s.run s.curUnit then eTub else 0) ||| (if d.t.ring then 0 else eNoRing) |||
        (if Tape.atLoadpt d.t then eLoad else 0) ||| (if d.track9 then 0 else e7Track)
    else eTub

/-- The bits of sense byte 1 a new operation keeps, model2415.c 628-629. -/
def keep1 : Nat := eTua ||| eTub ||| e7Track ||| eLoad ||| eNoRing

/-- `sense[0] = 0; sense[1] &= ...; sense[3] = 0`, model2415.c 627-630 and the same lines below. -/
def clear (s : S) : S := { s with se0 := 0, se1 := s.se1 &&& keep1, se3 := 0 }

/-- `add_event(tape_callback)` and `cmd_done = 0`. -/
def begin (s : S) : S := { addEv s (.tape s.curUnit) with cmdDone := false }

/-- The write command, model2415.c 619-656.  The result `r == 1` is `TAPE_STATUS_EOT`, `r == 2` is `TAPE_STATUS_BOT`. -/
def cmdWrite (s : S) : Res S :=
  if tst s.se1 eTub then .ok { s with status := sBusy }
  else
    (drive s s.curUnit).bind fun d =>
    if d.t.b.opened = false then .ok { clear s with se0 := eInterv }
    else if d.t.ring = false then .ok { clear s with se0 := eCmdRej }
    else
      (up (Tape.writeStart d.t)).bind fun r =>
      .ok (match r.1 with
        | .eot => begin { setTape (clear s) s.curUnit d r.2 with se0 := eWcZero, se1 := (s.se1 &&& keep1) ||| eWrite, dataRdy := true }
        | .bot => { setTape (clear s) s.curUnit d r.2 with se0 := eCmdRej }
        | _ => { setTape (clear s) s.curUnit d r.2 with se0 := eInterv })

/-- A read is started, model2415.c 677-685, 711-720, 813-822, 834-842. -/
def started (s : S) (u : Nat) (d : Drive) (r : St × Tape) : S :=
  if r.1 = .fileError then { setTape s u d r.2 with se0 := eInterv } else begin (setTape s u d r.2)

/-- The read command, model2415.c 658-686. -/
def cmdRead (s : S) : Res S :=
  if tst s.se1 eTub then .ok { s with status := sBusy }
  else
    (drive s s.curUnit).bind fun d =>
    if d.t.b.opened = false then .ok { clear s with se0 := eInterv }
    else (up (Tape.readForw d.t)).bind fun r => .ok (started (clear s) s.curUnit d r)

/-- At load point nothing moves backward, model2415.c 703-710, 827-833. -/
def atLoad (s : S) : S := { s with cmd := 0, status := s.status ||| sUnitChk, dataEnd := true, cmdDone := true }

/-- The read backward command, model2415.c 688-721. -/
def cmdReadBack (s : S) : Res S :=
  if tst s.se1 eTub then .ok { s with status := sBusy }
  else
    (drive s s.curUnit).bind fun d =>
    if d.t.b.opened = false then .ok { clear s with se0 := eInterv }
    else if tst s.se1 eLoad then .ok (atLoad (clear s))
    else (up (Tape.readBack d.t)).bind fun r => .ok (started (clear s) s.curUnit d r)

/-- Seven track mode from the command, model2415.c 741-766. -/
def newMode7 (m c : Nat) : Nat :=
  match (c >>> 3) % 8 with
  | 2 => mtOdd ||| mtConv ||| (c &&& 0xc0)
  | 4 => c &&& 0xc0
  | 5 => mtTrans ||| (c &&& 0xc0)
  | 6 => mtOdd ||| (c &&& 0xc0)
  | 7 => mtOdd ||| mtTrans ||| (c &&& 0xc0)
  | _ => m

/-- The mode commands, model2415.c 730-773. -/
def cmdMode (s : S) : S :=
  if tst s.se1 eTub then { s with status := sBusy, cmd := 0, cmdDone := true, dataEnd := true }
  else if tst s.se1 e7Track then
    { s with se0 := 0, se3 := 0, mode7 := newMode7 s.mode7 s.cmd, cmd := 0, cmdDone := true, dataEnd := true }
  else { s with se0 := 0, se3 := 0, mode9 := s.cmd &&& 0xc0, cmd := 0, cmdDone := true, dataEnd := true }

/-- The control commands, model2415.c 775-850. -/
def cmdMotion (s : S) : Res S :=
  if tst s.se1 eTub then .ok { s with status := sBusy }
  else
    (drive s s.curUnit).bind fun d =>
    if d.t.b.opened = false then .ok { clear s with se0 := eInterv }
    else if s.cmd = 0x17 ∨ s.cmd = 0x1f then
      .ok (if d.t.ring = false then { clear s with se0 := eCmdRej } else begin { clear s with dataEnd := true })
    else if s.cmd = 0x07 ∨ s.cmd = 0x0f then .ok (begin { clear s with dataEnd := true })
    else if s.cmd = 0x37 ∨ s.cmd = 0x3f then
      (up (Tape.readForw d.t)).bind fun r => .ok (started { clear s with dataEnd := true } s.curUnit d r)
    else if s.cmd = 0x27 ∨ s.cmd = 0x2f then
      if tst s.se1 eLoad then .ok (atLoad { clear s with dataEnd := true })
      else (up (Tape.readBack d.t)).bind fun r => .ok (started { clear s with dataEnd := true } s.curUnit d r)
    else .ok { clear s with se0 := eCmdRej, se2 := 3, se3 := 0, cmd := 0, dataEnd := true }

/-- The end of device_cmd, model2415.c 857-874.  (`sense[1] & BIT7` is never set.) -/
def cmdTail (s : S) : S :=
  (fun s : S => { s with status := s.status ||| (if s.dataEnd then sChnEnd else 0) ||| (if s.cmdDone then sDevEnd else 0) })
    (if s.cmd ≠ 4 ∧ (s.se0 &&& 0xfd ≠ 0 ∨ tst s.se1 1) then
      { s with status := s.status ||| sUnitChk, cmd := 0, dataEnd := true, cmdDone := true } else s)

/-- What device_cmd prepares, model2415.c 584-614. -/
def cmdPrep (s : S) (d : Option Drive) (c : Nat) : S :=
  { s with se1 := sense1 s d, se2 := 3, cmd := c, cmdDone := true, dataEnd := false, dataRdy := false, cc := 0,
           rdy := upd s.rdy s.curUnit false, mrk := upd s.mrk s.curUnit false, statUnit := none, status := 0 }

/-- The switch of device_cmd, model2415.c 615-856. -/
def cmdSwitch (s : S) : Res S :=
  if s.cmd % 16 = 0 then .ok s
  else if s.cmd % 16 = 1 ∨ s.cmd % 16 = 5 ∨ s.cmd % 16 = 9 ∨ s.cmd % 16 = 13 then (cmdWrite s).bind fun s => .ok (cmdTail s)
  else if s.cmd % 16 = 2 ∨ s.cmd % 16 = 6 ∨ s.cmd % 16 = 10 ∨ s.cmd % 16 = 14 then (cmdRead s).bind fun s => .ok (cmdTail s)
  else if s.cmd % 16 = 12 then (cmdReadBack s).bind fun s => .ok (cmdTail s)
  else if s.cmd % 16 = 4 then .ok (cmdTail { s with data := s.se0, senseCnt := 1, dataRdy := true, cmdDone := false })
  else if s.cmd % 16 = 3 ∨ s.cmd % 16 = 11 then .ok (cmdTail (cmdMode s))
  else if s.cmd % 16 = 7 ∨ s.cmd % 16 = 15 then (cmdMotion s).bind fun s => .ok (cmdTail s)
  else .ok (cmdTail { s with cmd := 0, dataEnd := true, cmdDone := true })

/-- device_cmd, model2415.c 561-875.  `c` is the command byte. -/
def deviceCmd (s : S) (c : Nat) : Res S :=
  if s.statUnit = some s.curUnit ∧ c % 16 ≠ 4 ∧ (s.se0 ≠ 0 ∨ tst s.se1 eNoise ∨ tst s.se3 (eVcr ||| eLrcr)) then
    .ok { s with status := s.status ||| sBusy }
  else match s.drives[s.curUnit]? with
    | none => .oob
    | some d => cmdSwitch (cmdPrep s d c)

/-! ## The bus -/

/-- What the bus function leaves: the device, the tags and bus in. -/
abbrev Out := Res (S × Tags × Nat)

/-- Reset, model2415.c 890-905. -/
def reset (s : S) (t : Tags) (bi : Nat) : S × Tags × Nat :=
  ({ s with selected := false, request := false, st := .idle, se0 := 0, cmd := 0, cmdDone := false, busyFlag := false,
            dataEnd := false, dataRdy := false },
   if s.selected then { t with oprIn := false, adrIn := false, srvIn := false, staIn := false } else t, bi)

/-- The scanner, model2415.c 922-929. -/
def scan (s : S) : S :=
  if s.rdy s.tScan then { s with request := true }
  else { s with tScan := if s.tScan + 1 ≥ 6 then 0 else s.tScan + 1 }

/-- Some unit has its ready flag on. -/
def anyRdy (s : S) : Bool := (List.range 8).any s.rdy

/-- Our address is on bus out, model2415.c 951-978. -/
def addressed (s : S) (t : Tags) (bo : Nat) : S × Tags × Nat :=
  (fun s : S =>
    if s.busyFlag || (anyRdy s && !s.rdy (bo % 8)) then
      ({ s with st := .busy }, { t with sel := false, reqIn := false, staIn := true }, bytePar (sBusy ||| sSms))
    else
      ({ s with curUnit := bo % 8, st := .initSel, selected := true },
       { t with sel := false, reqIn := false, oprIn := true }, bytePar ((s.addr &&& 0xf8) ||| (bo % 8))))
    (if parBad bo then { s with se0 := s.se0 ||| eBusChk } else s)

/-- The channel polls, model2415.c 981-994. -/
def polled (s : S) (t : Tags) (bi : Nat) : S × Tags × Nat :=
  if s.rdy s.tScan = false then
    ({ s with curUnit := s.tScan, status := s.status ||| sDevEnd, selected := true, st := .initSel },
     { t with sel := false, reqIn := false, oprIn := true }, bytePar ((s.addr &&& 0xf8) ||| s.tScan))
  else ({ s with selected := true, st := .initSel }, { t with sel := false, reqIn := false, oprIn := true }, bi)

/-- model2415.c 947-996. -/
def idleSel (s : S) (t : Tags) (bo bi : Nat) : S × Tags × Nat :=
  if t.sel = false then (s, t, bi)
  else if t.adr then
    if bo &&& 0xf8 = s.addr &&& 0xf8 then addressed s t bo else (s, t, bi)
  else if t.sup = false ∧ (s.request || s.stacked) then polled s t bi
  else (s, t, bi)

/-- `STATE_IDLE`, model2415.c 909-997. -/
def idle (s : S) (t : Tags) (bo bi : Nat) : S × Tags × Nat :=
  if t.opr = false then (s, t, bi)
  else
    (fun s : S =>
      if t.oprIn then (s, if s.request || s.stacked then { t with reqIn := false } else t, bi)
      else idleSel s (if s.request || s.stacked then { t with reqIn := !(t.sup || t.adr) } else t) bo bi)
      (scan s)

/-- `STATE_INIT_SEL`, model2415.c 999-1009. -/
def initSel (s : S) (t : Tags) : S × Tags × Nat :=
  if t.adr = false then
    ({ s with st := .command }, { t with sel := false, adrIn := true }, bytePar ((s.addr &&& 0xf8) ||| s.curUnit))
  else (s, { t with sel := false }, bytePar ((s.addr &&& 0xf8) ||| s.curUnit))

/-- The command byte, model2415.c 1020-1049; `request` is already cleared. -/
def command1 (s : S) (t : Tags) (bo bi : Nat) : Out :=
  if parBad bo then
    .ok ({ s with cmd := 0, cmdDone := false, busyFlag := false, dataEnd := false, status := sChnEnd ||| sDevEnd ||| sUnitChk,
                  se0 := s.se0 ||| eBusChk, st := .status, rdy := upd s.rdy s.curUnit false }, t, bi)
  else if s.busyFlag then
    .ok (if s.dataEnd = false then { s with st := .data1 }
         else { s with status := if s.status = 0 then sBusy else s.status, st := .status }, t, bi)
  else if s.stacked = false ∧ s.status = 0 then
    (deviceCmd { s with st := .status } (bo % 256)).bind fun s => .ok (s, t, bi)
  else .ok ({ s with st := .status }, t, bi)

/-- `STATE_COMMAND`, model2415.c 1011-1063. -/
def command (s : S) (t : Tags) (bo : Nat) : Out :=
  if t.cmd then command1 { s with request := false } { t with sel := false, adrIn := false } bo (bytePar s.addr)
  else if t.adr && !t.hld then
    .ok ({ s with request := false, st := .statusWait, status := if s.dataEnd then s.status else s.status ||| sChnEnd, dataEnd := true },
         { t with sel := false, adrIn := false, oprIn := false }, bytePar s.addr)
  else .ok ({ s with request := false }, { t with sel := false }, bytePar s.addr)

/-- `STATE_STATUS`, model2415.c 1066-1073. -/
def status (s : S) (t : Tags) : Out :=
  (withPar s.status).bind fun b => .ok ({ s with st := .statusAccept }, { t with sel := false, adrIn := false, staIn := true }, b)

/-- Initial status accepted, model2415.c 1087-1120. -/
def accepted (s : S) (t : Tags) (b : Nat) : S × Tags × Nat :=
  if s.cmdDone ∨ s.cmd = 0 then
    ({ s with chaining := t.sup, status := 0, stacked := false, dataEnd := false, cmdDone := false, cmd := 0, busyFlag := false,
              st := .statusWait, rdy := upd s.rdy s.curUnit false },
     { t with sel := false, staIn := false, oprIn := false }, b)
  else if s.dataEnd then
    ({ s with chaining := t.sup, status := 0, st := .statusWait },
     { t with sel := false, staIn := false, oprIn := t.oprIn && t.hld }, b)
  else ({ s with chaining := t.sup, status := 0, st := .opr }, { t with sel := false, staIn := false }, b)

/-- `STATE_STATUS_ACCEPT`, model2415.c 1076-1126. -/
def statusAccept (s : S) (t : Tags) : Out :=
  (withPar s.status).bind fun b =>
  .ok (if t.cmd then ({ s with stacked := true, st := .statusWait }, { t with sel := false, oprIn := false, staIn := false }, b)
       else if t.srv then accepted s t b
       else if t.adr then ({ s with st := .idle }, { t with sel := false, oprIn := false, staIn := false }, b)
       else (s, { t with sel := false }, b))

/-- `STATE_STATUS_WAIT`, model2415.c 1129-1140. -/
def statusWait (s : S) (t : Tags) (bi : Nat) : S × Tags × Nat :=
  if t.cmd || t.srv || t.adr then (s, { t with sel := false }, bi)
  else if t.hld = false ∨ s.busyFlag = false then
    ({ s with selected := false, st := .idle }, { t with sel := false, oprIn := false }, bi)
  else ({ s with st := .waitDevend }, { t with sel := false }, bi)

/-- `STATE_BUSY`, model2415.c 1143-1162. -/
def busy (s : S) (t : Tags) : S × Tags × Nat :=
  if t.sel = false then
    (if t.adr ∧ s.dataEnd = false then
       { s with selected := false, st := .idle, dataRdy := false, dataEnd := true, status := s.status ||| (sChnEnd ||| sDevEnd),
                cmdDone := true, request := true }
     else { s with selected := false, st := .idle },
     { t with sel := false, staIn := false }, bytePar (sBusy ||| sSms))
  else (s, { t with sel := false }, bytePar (sBusy ||| sSms))

/-- `STATE_END_STATUS`, model2415.c 1165-1176. -/
def endStatus (s : S) (t : Tags) (bi : Nat) : Out :=
  if t.cmd || t.srv then .ok (s, { t with sel := false }, bi)
  else (withPar s.status).bind fun b => .ok ({ s with st := .endAccept }, { t with sel := false, staIn := true }, b)

/-- Ending status accepted, model2415.c 1193-1222. -/
def ended (s : S) (t : Tags) (b : Nat) : S × Tags × Nat :=
  if s.cmdDone then
    ({ s with status := 0, stacked := false, cmd := 0, cmdDone := false, busyFlag := false, st := .statusWait },
     { t with sel := false, staIn := false, oprIn := false }, b)
  else if s.dataEnd then ({ s with status := 0, st := .statusWait }, { t with sel := false, staIn := false, oprIn := false }, b)
  else if t.hld then ({ s with status := 0, st := .waitDevend }, { t with sel := false, staIn := false }, b)
  else ({ s with status := 0, st := .statusWait }, { t with sel := false, staIn := false, oprIn := false }, b)

/-- `STATE_END_ACCEPT`, model2415.c 1179-1223. -/
def endAccept (s : S) (t : Tags) : Out :=
  (withPar s.status).bind fun b =>
  .ok (if t.cmd then ({ s with stacked := true, st := .statusWait }, { t with sel := false, staIn := false, oprIn := false }, b)
       else if t.srv then ended s t b
       else (s, { t with sel := false }, b))

/-- `STATE_WAIT_DEVEND`, model2415.c 1226-1234. -/
def waitDevend (s : S) (t : Tags) (bi : Nat) : S × Tags × Nat :=
  (if s.cmdDone then { s with request := false, st := .status } else s, { t with sel := false }, bi)

/-- Sense byte number `i`. -/
def senseAt (s : S) : Nat → Nat
  | 0 => s.se0
  | 1 => s.se1
  | 2 => s.se2
  | 3 => s.se3
  | _ => 0

/-- The next sense byte, or the end of the sense command, model2415.c 1266-1276. -/
def oprSense (s : S) : S :=
  if s.cmd % 16 = 4 then
    if s.senseCnt < 6 ∧ s.dataEnd = false then { s with data := senseAt s s.senseCnt % 256, senseCnt := s.senseCnt + 1, dataRdy := true }
    else { s with dataEnd := true, cmdDone := true, busyFlag := false, status := s.status ||| (sChnEnd ||| sDevEnd) }
  else s

/-- `STATE_OPR`, model2415.c 1237-1285. -/
def opr (s : S) (t : Tags) (bi : Nat) : S × Tags × Nat :=
  if t.adr then
    ({ s with request := false, dataEnd := true, dataRdy := false, status := s.status ||| sChnEnd, selected := false,
              st := if tst s.cmd 0x10 then .endStatus else .idle },
     { t with sel := false, oprIn := false }, bi)
  else if s.dataRdy then ({ s with request := false, st := .data1 }, { t with sel := false }, bi)
  else
    (fun s : S => (if s.cmdDone then { s with status := s.status ||| (sDevEnd ||| sChnEnd), st := .endStatus } else s,
                   { t with sel := false }, bi))
      (oprSense { s with request := false })

/-- `STATE_DATA_1`, model2415.c 1287-1300. -/
def data1 (s : S) (t : Tags) (bi : Nat) : Out :=
  if t.srv || t.sup then .ok (s, { t with sel := false }, bi)
  else (withPar s.data).bind fun b => .ok ({ s with st := .data2 }, { t with sel := false, srvIn := true }, b)

/-- A byte from the channel, model2415.c 1309-1322. -/
def takeByte (s : S) (bo : Nat) : S :=
  if tst s.cmd 1 then
    if parBad bo then
      { s with se0 := s.se0 ||| eBusChk, status := s.status ||| sUnitChk ||| (sChnEnd ||| sDevEnd), dataEnd := true, busyFlag := false,
               cmdDone := true }
    else { s with data := bo % 256 }
  else s

/-- `STATE_DATA_2`, model2415.c 1302-1330. -/
def data2 (s : S) (t : Tags) (bo : Nat) : Out :=
  (withPar s.data).bind fun b =>
  .ok (if t.srv || t.cmd then
         ((fun s : S => if t.cmd then { s with st := .opr, dataEnd := true, status := sChnEnd } else { s with st := .opr })
            (takeByte { s with dataRdy := false } bo),
          { t with sel := false, srvIn := false }, b)
       else (s, { t with sel := false }, b))

/-- model2415_dev, model2415.c 878-1332. -/
def dev (s : S) (t : Tags) (bo bi : Nat) : Out :=
  if t.opr = false ∧ t.sup = false then .ok (reset s t bi)
  else match s.st with
    | .idle => .ok (idle s t bo bi)
    | .initSel => .ok (initSel s t)
    | .command => command s t bo
    | .status => status s t
    | .statusAccept => statusAccept s t
    | .statusWait => .ok (statusWait s t bi)
    | .busy => .ok (busy s t)
    | .endStatus => endStatus s t bi
    | .endAccept => endAccept s t
    | .waitDevend => .ok (waitDevend s t bi)
    | .opr => .ok (opr s t bi)
    | .data1 => data1 s t bi
    | .data2 => data2 s t bo

/-! ## The operator -/

/-- The keys of a drive and what the operator has chosen in the dialog, panel2415.c 259-325. -/
inductive Key where
  /-- Load/Rewind; `same`: the name in the dialog is the name of the mounted file; otherwise `file` is its content. -/
  | load (same : Bool) (file : List Nat) (f : Fmt) (ring den : Bool)
  | start
  | unload
  | reset
  /-- Move to the end of the reel. -/
  | fin (pos : Int)

/-- The drive after the first half of Load/Rewind, panel2415.c 272-288. -/
def loaded (d : Drive) (same : Bool) (file : List Nat) (f : Fmt) (ring den : Bool) : Drive :=
  (fun d : Drive => if d.t.b.opened then d else mount d file f ring den)
    (if d.t.b.opened ∧ same = false then unmount d else d)

/-- The rewind is started. -/
def rewinding (d : Drive) : Drive := { d with t := (Tape.startRewind d.t).2 }

/-- model2415_update, panel2415.c 258-325. -/
def key (s : S) (u : Nat) : Key → Res S
  | .load same file f ring den =>
    (drive s u).bind fun d =>
    .ok (if d.online then s
         else addEv { setDrive s u (rewinding (loaded d same file f ring den)) with rew := upd s.rew u true } (.rewind u))
  | .start =>
    (drive s u).bind fun d =>
    .ok (if d.online = false ∧ d.fdOk then { setDrive s u { d with online := true } with rdy := upd s.rdy u true } else s)
  | .unload =>
    (drive s u).bind fun d =>
    .ok (if d.online then s
         else addEv { setDrive s u (rewinding d) with rew := upd s.rew u true, run := upd s.run u true } (.rewind u))
  | .reset => (drive s u).bind fun d => .ok (setDrive s u { d with online := false })
  | .fin pos => (drive s u).bind fun d => .ok (setTape s u d { d.t with posFrame := pos })

end Verif.Mt
