/-!
# Model of the tape layer (`/repo/src/device/tape.c`, `/repo/src/device/tape.h`)

The host file is a list of bytes.  `lseek`/`read`/`write` never fail, except that a `write` on a file opened without
the write ring (`O_RDONLY`) fails and changes nothing.  Bytes are natural numbers; the theorems about contents assume
they are below 256 where it matters.  Log output, including the loops that only print the buffer
(tape.c 607-621, 882-900; their indices stay below `sizeof(tape->buffer)` by their own loop condition), is not modelled.
An index outside `tape->buffer` is the outcome `oob`; an endless loop is `hang`.
-/
namespace Verif.Tape

/-- Outcome of a call: a result, an access outside an array, or the step bound reached. -/
inductive Res (α : Type) where
  | ok (a : α)
  | oob
  | hang
deriving Repr, DecidableEq

def Res.bind {α β : Type} (x : Res α) (f : α → Res β) : Res β :=
  match x with
  | .ok a => f a
  | .oob => .oob
  | .hang => .hang

instance : Monad Res where
  pure := Res.ok
  bind := Res.bind

/-- `TAPE_STATUS_*`, tape.h 66-74. -/
inductive St where
  | fileError | ok | eot | bot | eob | parity | mark | wrp
deriving Repr, DecidableEq

/-- `sizeof(tape->buffer)`, tape.h 88. -/
@[irreducible] def W : Nat := 32768

/-- `TYPE_TAP`, `TYPE_E11`, `TYPE_P7B` and the unused fourth code, tape.h 30-34. -/
inductive Fmt where
  | tap | e11 | p7b | other
deriving Repr, DecidableEq

/-- `FUNC_*`, tape.h 51-57; `none` is the cleared field. -/
inductive Fn where
  | none | read | write | rew | rdback | mark
deriving Repr, DecidableEq

/-- The part of `struct _tape_buffer` the byte functions touch (tape.h 76-89): `opened` is `file_name != NULL`,
`writable` says the descriptor was opened `O_RDWR`, `eot`/`bot` are the `TAPE_EOT`/`TAPE_BOT` bits of `format`,
`file` is the content of the host file. -/
structure Buf where
  opened : Bool
  writable : Bool
  file : List Nat
  pos : Nat
  posBuff : Nat
  lenBuff : Nat
  dirty : Bool
  eot : Bool
  bot : Bool
  buffer : List Nat
deriving Repr, DecidableEq

/-- `struct _tape_buffer`, tape.h 76-89.  The bits of `format` are separate fields (`SELECTED`, `ONLINE`, `ATTACHED`
and `TRACK9` are not used by the functions below and left out). -/
structure Tape where
  b : Buf
  fmt : Fmt
  ring : Bool
  den1600 : Bool
  mark : Bool
  func : Fn
  posFrame : Int
  lrecl : Nat
  orecl : Nat
  parity : Bool
  srec : Nat
deriving Repr, DecidableEq

/-! ## The host file -/

/-- `lseek(p); write(bs)` on the host file: a gap past the end is filled with zeros; writing nothing changes nothing. -/
def wr (f : List Nat) (p : Nat) (bs : List Nat) : List Nat :=
  if bs = [] then f
  else (f ++ List.replicate (p - f.length) 0).take p ++ bs ++ f.drop (p + bs.length)

/-- The flush sequence `lseek; write; dirty = 0`, tape.c 166-172, 195-204, 239-248, 282-291, 319-327, 985-992.
`none`: the write failed. -/
def flush (b : Buf) : Option Buf :=
  if b.writable then some { b with file := wr b.file b.pos (b.buffer.take b.lenBuff), dirty := false }
  else none

/-- `lseek(pos); len_buff = read(buffer, sizeof buffer)`, tape.c 211-213, 255-257, 344-346. -/
def fill (b : Buf) (p : Nat) : Buf :=
  let d := (b.file.drop p).take W
  { b with pos := p, lenBuff := d.length, buffer := d ++ b.buffer.drop d.length }

/-- Lines common to tape_read_byte and tape_peek_byte: flush, advance, refill.  tape.c 195-213 and 239-257. -/
def refill (b : Buf) : Option Buf :=
  if b.dirty then
    match flush b with
    | none => none
    | some b => some { fill b (b.pos + b.lenBuff) with posBuff := 0 }
  else some { fill b (b.pos + b.lenBuff) with posBuff := 0 }

/-! ## Byte access.  `d` is the former content of `*data`. -/

/-- `*data = tape->buffer[tape->pos_buff++]`, tape.c 219. -/
def takeByte (b : Buf) : Res (St × Nat × Buf) :=
  match b.buffer[b.posBuff]? with
  | some x => .ok (.ok, x, { b with posBuff := b.posBuff + 1 })
  | none => .oob

/-- tape_read_byte, tape.c 188-222. -/
def readByte (b : Buf) (d : Nat) : Res (St × Nat × Buf) :=
  if b.opened = false then .ok (.fileError, d, b)
  else if b.posBuff ≥ b.lenBuff ∨ b.lenBuff = 0 then
    match refill b with
    | none => .ok (.fileError, d, b)
    | some b => if b.lenBuff = 0 then .ok (.eot, d, { b with eot := true }) else takeByte b
  else takeByte b

/-- `*data = tape->buffer[tape->pos_buff]`, tape.c 263. -/
def lookByte (b : Buf) : Res (St × Nat × Buf) :=
  match b.buffer[b.posBuff]? with
  | some x => .ok (.ok, x, b)
  | none => .oob

/-- tape_peek_byte, tape.c 232-266. -/
def peekByte (b : Buf) (d : Nat) : Res (St × Nat × Buf) :=
  if b.opened = false then .ok (.fileError, d, b)
  else if b.posBuff ≥ b.lenBuff ∨ b.lenBuff = 0 then
    match refill b with
    | none => .ok (.fileError, d, b)
    | some b => if b.lenBuff = 0 then .ok (.eot, d, b) else lookByte b
  else lookByte b

/-- `tape->buffer[tape->pos_buff++] = data` and the length update, tape.c 297-300. -/
def putByte (b : Buf) (x : Nat) : Res (St × Buf) :=
  if b.posBuff < b.buffer.length then
    .ok (.ok, { b with buffer := b.buffer.set b.posBuff x, posBuff := b.posBuff + 1, dirty := true,
                       lenBuff := if b.posBuff + 1 > b.lenBuff then b.posBuff + 1 else b.lenBuff })
  else .oob

/-- tape_write_byte, tape.c 275-302.  As in the code, `pos` is advanced at the end of the buffer only when the buffer
is dirty. -/
def writeByte (b : Buf) (x : Nat) : Res (St × Buf) :=
  if b.opened = false then .ok (.fileError, b)
  else if b.posBuff ≥ W then
    if b.dirty then
      match flush b with
      | none => .ok (.fileError, b)
      | some b => putByte { b with pos := b.pos + b.lenBuff, lenBuff := 0, posBuff := 0 } x
    else putByte { b with lenBuff := 0, posBuff := 0 } x
  else putByte b x

/-- `*data = tape->buffer[--tape->pos_buff]`, tape.c 358. -/
def backByte (b : Buf) : Res (St × Nat × Buf) :=
  if b.posBuff = 0 then .oob
  else match b.buffer[b.posBuff - 1]? with
    | some x => .ok (.ok, x, { b with posBuff := b.posBuff - 1 })
    | none => .oob

/-- tape.c 328-356: after the flush; load point or previous window. -/
def readbkRefill (b : Buf) (d : Nat) : Res (St × Nat × Buf) :=
  if b.bot then .ok (.bot, d, b)
  else if b.pos = 0 then
    match b.buffer[b.posBuff]? with
    | some x => .ok (.bot, x, { b with bot := true, posBuff := 0, lenBuff := 0 })
    | none => .oob
  else if b.pos < W then
    let opos := b.pos
    backByte { fill b 0 with posBuff := opos, eot := false }
  else
    let b' := fill b (b.pos - W)
    backByte { b' with posBuff := b'.lenBuff, eot := false }

/-- tape_readbk_byte, tape.c 312-361. -/
def readbkByte (b : Buf) (d : Nat) : Res (St × Nat × Buf) :=
  if b.opened = false then .ok (.fileError, d, b)
  else if b.posBuff = 0 ∨ b.lenBuff = 0 then
    if b.dirty then
      match flush b with
      | none => .ok (.fileError, d, b)
      | some b => readbkRefill b d
    else readbkRefill b d
  else backByte b

/-- tape_write_prev, tape.c 369-392. -/
def writePrev (t : Tape) (x : Nat) : Res (St × Tape) :=
  if t.b.opened = false then .ok (.fileError, t)
  else if t.b.pos ≤ t.srec ∧ t.srec - t.b.pos < W then
    let q := t.srec - t.b.pos
    if q < t.b.buffer.length then
      .ok (.ok, { t with b := { t.b with buffer := t.b.buffer.set q x,
                                         lenBuff := if q > t.b.lenBuff then q else t.b.lenBuff,
                                         dirty := true }
                         srec := t.srec + 1 })
    else .oob
  else if t.b.writable then
    .ok (.ok, { t with b := { t.b with file := wr t.b.file t.srec [x] }, srec := t.srec + 1 })
  else .ok (.fileError, t)

/-! ## Loops over several bytes -/

/-- `for (i = 0; i < n; i++) { r = tape_read_byte(tape, &lrecl[i]); if (r != OK) return r; }`, tape.c 580-584, 866-870.
Returns the bytes in reading order. -/
def rdLoop : Nat → Buf → Res (St × List Nat × Buf)
  | 0, b => .ok (.ok, [], b)
  | n + 1, b => do
    let (s, x, b) ← readByte b 0
    if s = .ok then
      let (s, l, b) ← rdLoop n b
      .ok (s, x :: l, b)
    else .ok (s, [], b)

/-- `for (...) { r = tape_readbk_byte(...); if (r != OK) return r; }`, tape.c 590-594, 677-681, 932-936.
Returns the bytes in file order. -/
def bkLoop : Nat → Buf → List Nat → Res (St × List Nat × Buf)
  | 0, b, acc => .ok (.ok, acc, b)
  | n + 1, b, acc => do
    let (s, x, b) ← readbkByte b 0
    if s = .ok then bkLoop n b (x :: acc) else .ok (s, acc, b)

/-- `for (...) { r = tape_write_byte(...); if (r != OK) return r; }`, tape.c 425-429, 474-478, 526-530, 915-919. -/
def wrLoop : List Nat → Buf → Res (St × Buf)
  | [], b => .ok (.ok, b)
  | x :: l, b => do
    let (s, b) ← writeByte b x
    if s = .ok then wrLoop l b else .ok (s, b)

/-- `for (...) { r = tape_write_prev(...); if (r != OK) return r; }`, tape.c 909-913. -/
def prevLoop : List Nat → Tape → Res (St × Tape)
  | [], t => .ok (.ok, t)
  | x :: l, t => do
    let (s, t) ← writePrev t x
    if s = .ok then prevLoop l t else .ok (s, t)

/-- `lrecl[0] | lrecl[1] << 8 | lrecl[2] << 16 | lrecl[3] << 24`, tape.c 585-586, 682-683, 871-872, 937-938.
The four bytes do not overlap, so the sum is the same number. -/
def num4 : List Nat → Nat
  | [a, b, c, d] => a + b * 256 + c * 65536 + d * 16777216
  | _ => 0

/-- `lrecl[i] = (tape->lrecl >> (8 * i)) & 0xff`, tape.c 903-906. -/
def bytes4 (n : Nat) : List Nat := [n % 256, n / 256 % 256, n / 65536 % 256, n / 16777216 % 256]

/-! ## Record operations -/

/-- tape_attach, tape.c 128-152, on a file with content `f`; `t` is the drive before the call.  (A missing file
without the ring makes `open` fail; that case is not modelled.) -/
def attach (t : Tape) (f : List Nat) (fmt : Fmt) (ring den : Bool) : Tape :=
  { t with b := { t.b with opened := true, writable := ring, file := f, pos := 0, posBuff := 0, lenBuff := 0,
                           dirty := false, eot := false, bot := true }
           fmt := fmt, ring := ring, den1600 := den, mark := false, func := .none
           posFrame := 0, lrecl := 0, srec := 0 }

/-- tape_detach, tape.c 161-178.  A failing flush is only logged. -/
def detach (t : Tape) : Tape :=
  let b := if t.b.dirty then
      match flush t.b with
      | none => { t.b with dirty := false }
      | some b => b
    else t.b
  { t with b := { b with opened := false } }

/-- tape_at_loadpt, tape.c 57-61. -/
def atLoadpt (t : Tape) : Bool := t.b.bot

/-- tape_write_start, tape.c 407-441. -/
def writeStart (t : Tape) : Res (St × Tape) :=
  if t.b.opened = false then .ok (.fileError, t)
  else if t.ring = false then .ok (.wrp, t)
  else
    let t := { t with b := { t.b with bot := false }, mark := false, parity := false,
                      srec := t.b.pos + t.b.posBuff }
    if t.fmt = .tap ∨ t.fmt = .e11 then do
      let (s, b) ← wrLoop [0, 0, 0, 0] t.b
      if s = .ok then .ok (.ok, { t with b := b, lrecl := 0, orecl := 0, func := .write })
      else .ok (s, { t with b := b })
    else .ok (.ok, { t with lrecl := 0, orecl := 0, func := .write })

/-- tape_write_mark, tape.c 455-493 (tape_erase_gap, tape.c 507-545, is the same code). -/
def writeMark (t : Tape) : Res (St × Tape) :=
  if t.b.opened = false then .ok (.fileError, t)
  else if t.ring = false then .ok (.wrp, t)
  else
    let t := { t with b := { t.b with bot := false }, mark := false, srec := t.b.pos + t.b.posBuff }
    if t.fmt = .tap ∨ t.fmt = .e11 then do
      let (s, b) ← wrLoop [0, 0, 0, 0] t.b
      if s = .ok then
        .ok (.ok, { t with b := b, lrecl := 0, orecl := 0, posFrame := t.posFrame + 1200, func := .mark })
      else .ok (s, { t with b := b })
    else if t.fmt = .p7b then do
      let (s, b) ← wrLoop [0x8f] t.b
      if s = .ok then
        .ok (.ok, { t with b := b, lrecl := 0, orecl := 0, posFrame := t.posFrame + 1200, func := .mark })
      else .ok (s, { t with b := b })
    else .ok (.ok, { t with lrecl := 0, orecl := 0, posFrame := t.posFrame + 1200, func := .mark })

/-- tape_read_forw, tape.c 559-650. -/
def readForw (t : Tape) : Res (St × Tape) :=
  if t.b.opened = false then .ok (.fileError, t)
  else
    let t := { t with b := { t.b with bot := false }, mark := false, parity := false }
    if t.b.eot then .ok (.eot, t)
    else
      let t := { t with func := .read }
      if t.fmt = .tap ∨ t.fmt = .e11 then do
        let t := { t with srec := t.b.pos + t.b.posBuff }
        let (s, l, b) ← rdLoop 4 t.b
        if s ≠ .ok then .ok (s, { t with b := b })
        else if num4 l = 0xffffffff then do
          let (s, _, b) ← bkLoop 4 { b with eot := true } []
          .ok (if s = .ok then .eot else s, { t with b := b, lrecl := num4 l })
        else if num4 l = 0 then
          .ok (.mark, { t with b := b, lrecl := 0, posFrame := t.posFrame + 1200, mark := true })
        else .ok (.ok, { t with b := b, orecl := num4 l, lrecl := 0 })
      else if t.fmt = .p7b then do
        let t := { t with srec := t.b.pos + t.b.posBuff }
        let (s, x, b) ← peekByte t.b 0
        if s ≠ .ok then .ok (s, { t with b := b, lrecl := 2 })
        else if x = 0x8f then do
          let (s, _, b) ← readByte b x
          if s = .fileError then .ok (s, { t with b := b, lrecl := 2 })
          else .ok (if s = .eot then .eot else .mark,
            { t with b := b, lrecl := 2, posFrame := t.posFrame + 1200, mark := true })
        else .ok (.ok, { t with b := b, lrecl := 0 })
      else .ok (.ok, t)

/-- tape_read_back, tape.c 657-722. -/
def readBack (t : Tape) : Res (St × Tape) :=
  if t.b.opened = false then .ok (.fileError, t)
  else
    let t := { t with b := { t.b with eot := false }, mark := false }
    if t.b.bot then .ok (.bot, t)
    else
      let t := { t with parity := false, func := .rdback }
      if t.fmt = .tap ∨ t.fmt = .e11 then do
        let t := { t with srec := t.b.pos + t.b.posBuff }
        let (s, l, b) ← bkLoop 4 t.b []
        if s ≠ .ok then .ok (s, { t with b := b })
        else if num4 l = 0xffffffff then .ok (.ok, { t with b := b, lrecl := num4 l })
        else do
          let (_, _, b) ← (if t.fmt = .tap ∧ num4 l % 2 = 1 then readbkByte b 0 else .ok (.ok, 0, b))
          if num4 l = 0 then
            .ok (.mark, { t with b := b, lrecl := 0, posFrame := t.posFrame - 1200, mark := true })
          else .ok (.ok, { t with b := b, lrecl := num4 l, orecl := num4 l })
      else if t.fmt = .p7b then do
        let t := { t with srec := t.b.pos + t.b.posBuff }
        let (s, x, b) ← readbkByte t.b 0
        if s ≠ .ok then .ok (s, { t with b := b })
        else if x = 0x8f then
          .ok (.mark, { t with b := b, srec := b.pos + b.posBuff, posFrame := t.posFrame - 1200, lrecl := 2,
                               mark := true })
        else do
          let (_, _, b) ← readByte b x
          .ok (.ok, { t with b := b, lrecl := 0 })
      else .ok (.ok, t)

/-- Frames moved per byte: `l`, tape.c 738. -/
def step (t : Tape) : Int := if t.den1600 then 1 else 2

/-- tape_read_frame, tape.c 734-800. -/
def readFrame (t : Tape) (d : Nat) : Res (St × Nat × Tape) :=
  if t.b.opened = false then .ok (.fileError, d, t)
  else if t.mark then .ok (.mark, d, t)
  else if t.fmt = .tap ∨ t.fmt = .e11 then
    if t.func = .read then
      if t.lrecl ≥ t.orecl then .ok (.eob, d, t)
      else do
        let (s, x, b) ← readByte t.b d
        .ok (s, x, { t with b := b, lrecl := t.lrecl + 1, posFrame := t.posFrame + step t })
    else if t.func = .rdback then
      if t.lrecl = 0 then .ok (.eob, d, t)
      else do
        let (s, x, b) ← readbkByte t.b d
        .ok (s, x, { t with b := b, lrecl := t.lrecl - 1, posFrame := t.posFrame - step t })
    else .ok (.fileError, d, { t with posFrame := t.posFrame + step t })
  else if t.fmt = .p7b then
    if t.func = .read then
      if t.lrecl = 2 then .ok (.eob, d, t)
      else do
        let (s, x, b) ← readByte t.b d
        if t.lrecl = 1 ∧ x / 128 % 2 = 1 then do
          let (_, x, b) ← readbkByte b x
          .ok (.eob, x, { t with b := b, lrecl := 2 })
        else .ok (s, x - x / 128 % 2 * 128, { t with b := b, lrecl := 1, posFrame := t.posFrame + step t })
    else if t.func = .rdback then
      if t.lrecl = 2 then .ok (.eob, d, t)
      else do
        let (s, x, b) ← readbkByte t.b d
        .ok (s, x - x / 128 % 2 * 128,
          { t with b := b, lrecl := if x / 128 % 2 = 1 then 2 else 1, posFrame := t.posFrame - step t })
    else .ok (.fileError, d, { t with posFrame := t.posFrame + step t })
  else .ok (.fileError, d, { t with posFrame := t.posFrame + step t })

/-- tape_write_frame, tape.c 807-818. -/
def writeFrame (t : Tape) (x : Nat) : Res (St × Tape) :=
  if t.b.opened = false then .ok (.fileError, t)
  else do
    let x := if t.fmt = .p7b ∧ t.lrecl = 0 then (if x / 128 % 2 = 1 then x else x + 128) else x
    let (s, b) ← writeByte t.b x
    .ok (s, { t with b := b, lrecl := (t.lrecl + 1) % 4294967296, posFrame := t.posFrame + step t })

/-- `while (tape->lrecl < tape->orecl) r = tape_read_frame(...)`, tape.c 858-860, and
`while (tape->lrecl > 0) r = tape_read_frame(...)`, tape.c 926-929: `n` is the number of rounds, which the loop condition
fixes because every round moves `lrecl` by one. -/
def skipLoop : Nat → Tape → Nat → Res Tape
  | 0, t, _ => .ok t
  | n + 1, t, d => do
    let (_, d, t) ← readFrame t d
    skipLoop n t d

/-- `while (tape->lrecl != 2) { r = tape_read_frame(...); if (r == FILE_ERROR) return r; }`, tape.c 956-960, 964-968.
`true`: left with FILE_ERROR. -/
def irgLoop : Nat → Tape → Nat → Res (Bool × Tape)
  | n, t, d =>
    if t.lrecl = 2 then .ok (false, t)
    else match n with
      | 0 => .hang
      | n + 1 => do
        let (s, d, t) ← readFrame t d
        if s = .fileError then .ok (true, t) else irgLoop n t d

/-- Last lines of tape_finish_rec, tape.c 972-976. -/
def finishEnd (t : Tape) : Res (St × Tape) :=
  .ok (if t.parity then .parity else .ok, { t with func := .none })

/-- tape_finish_rec, tape.c 831-977.  `junk` is the uninitialised content of the local `lrecl[0]`; `fuel` bounds the
loops of the P7B format. -/
def finishRec (fuel junk : Nat) (t : Tape) : Res (St × Tape) :=
  if t.b.opened = false then .ok (.fileError, t)
  else if t.fmt = .tap ∨ t.fmt = .e11 then
    if t.mark then .ok (.ok, { t with func := .none, mark := false })
    else match t.func with
      | .read => do
        let t ← skipLoop (t.orecl - t.lrecl) t junk
        let (_, _, b) ← (if t.fmt = .tap ∧ t.orecl % 2 = 1 then readByte t.b 0 else .ok (.ok, 0, t.b))
        let (s, l, b) ← rdLoop 4 b
        if s ≠ .ok then .ok (s, { t with b := b })
        else finishEnd { t with b := b, lrecl := num4 l }
      | .write => do
        let (_, b) ← (if t.fmt = .tap ∧ t.lrecl % 2 = 1 then writeByte t.b 0 else .ok (.ok, t.b))
        let (s, t) ← prevLoop (bytes4 t.lrecl) { t with b := b }
        if s ≠ .ok then .ok (s, t)
        else do
          let (s, b) ← wrLoop (bytes4 t.lrecl) t.b
          if s ≠ .ok then .ok (s, { t with b := b }) else finishEnd { t with b := b }
      | .rdback => do
        let t ← skipLoop t.lrecl t junk
        let (s, l, b) ← bkLoop 4 t.b []
        if s ≠ .ok then .ok (s, { t with b := b })
        else finishEnd { t with b := b, lrecl := num4 l }
      | _ => finishEnd t
  else if t.fmt = .p7b then
    if t.mark then finishEnd { t with mark := false }
    else match t.func with
      | .read => do
        let (e, t) ← irgLoop fuel t junk
        if e then .ok (.fileError, t) else finishEnd t
      | .rdback => do
        let (e, t) ← irgLoop fuel t junk
        if e then .ok (.fileError, t) else finishEnd t
      | _ => finishEnd t
  else finishEnd t

/-- tape_start_rewind, tape.c 981-997. -/
def startRewind (t : Tape) : St × Tape :=
  if t.b.dirty then
    match flush t.b with
    | none => (.fileError, t)
    | some b => (.ok, { t with b := { b with pos := 0, posBuff := 0, lenBuff := 0 } })
  else (.ok, { t with b := { t.b with pos := 0, posBuff := 0, lenBuff := 0 } })

/-- tape_rewind_frames, tape.c 1004-1018. -/
def rewindFrames (t : Tape) (n : Int) : St × Tape :=
  if t.b.opened = false then (.fileError, t)
  else if t.posFrame < n then (.bot, { t with b := { t.b with bot := true }, posFrame := 0 })
  else (.ok, { t with posFrame := t.posFrame - n })

end Verif.Tape
