import Verif.Card.Model
import Verif.Xlat.Model
/-!
# Model of the disk drive layer (`/repo/src/device/dasd.c`, `/repo/src/device/dasd.h`)

The host file is a list of bytes; `lseek`, `read` and `write` on an open file never fail (a `read` past the end is
short, a `write` past the end fills the hole with zeros).  The cylinder buffer is `none` (NULL) or a list of bytes, and
every access outside it is the outcome `oob`.  Unsigned fields wrap as in C (`u8`, `u16`, `u32`).  Logging is dropped:
the macros of `logger.h` 117-125 evaluate their arguments only when disk logging is switched on.
-/
namespace Verif.Dasd
open Verif.Card (Res look)
open Verif.Xlat

/-- `struct disk_t`, dasd.c 137-150 (`sen_cnt` is never used and dropped). -/
structure DiskType where
  name : String
  cyl : Nat
  heads : Nat
  bpt : Nat
  dev : Nat
  g1 : Nat
  g2 : Nat
  g4 : Nat
  sync : Nat
  rate : Nat
deriving Repr, DecidableEq

/-- `disk_type[]` without its end marker, dasd.c 152-160. -/
def diskTypes : List DiskType :=
  [⟨"2303", 80, 10, 4984, 0x03, 72, 36, 36, 6, 13⟩,
   ⟨"2311", 203, 10, 3717, 0x11, 36, 36, 36, 6, 13⟩,
   ⟨"2302", 250, 46, 4984, 0x02, 72, 36, 36, 6, 13⟩,
   ⟨"2314", 202, 20, 7294, 0x14, 36, 18, 73, 5, 13⟩]

/-- `DK_POS_*`, dasd.c 122-133. -/
inductive Pos where
  | index | ha | gap1 | cnt0 | gap2 | am | cnt1 | key | gap3 | data | fin | unk
deriving Repr, DecidableEq

def u8 (n : Nat) : Nat := n % 256
def u16 (n : Nat) : Nat := n % 65536
def u32 (n : Nat) : Nat := n % 4294967296

/-- `struct _dasd_t`, dasd.h 100-134.  `ty` is the entry `disk_type[dasd->type]` itself.  `opened` is
`file_name != NULL`; `file` is the content of the host file; `ready`/`online` are bits of `status`; `events` counts
the pending `seek_callback` events.  `tags`, `fmt` are never used and dropped. -/
structure S where
  ty : DiskType
  label : List Nat        -- vol_label[9], as the bytes before the final NUL
  opened : Bool
  file : List Nat
  head : Nat
  online : Bool
  ready : Bool
  diff : Nat
  dir : Bool
  attn : Bool
  flags : Nat
  ams : Bool
  cbuf : Option (List Nat)
  fpos : Nat
  tstart : Nat
  ncyl : Nat
  cyl : Nat
  tpos : Nat
  rpos : Nat
  cpos : Nat
  count : Nat
  dlen : Nat
  tsize : Nat
  rcnt : Nat
  state : Pos
  dirty : Bool
  klen : Nat
  ck0 : Nat
  ck1 : Nat
  step : Nat
  events : Nat
deriving Repr, DecidableEq

/-- `calloc(1, sizeof(struct _dasd_t))` followed by a successful `dasd_settype`, model2841.c 1086-1096,
panel2844.c 146-156. -/
def fresh (t : DiskType) : S :=
  { ty := t, label := [], opened := false, file := [], head := 0, online := false, ready := false, diff := 0,
    dir := false, attn := false, flags := 0, ams := false, cbuf := none, fpos := 0, tstart := 0, ncyl := 0, cyl := 0,
    tpos := 0, rpos := 0, cpos := 0, count := 0, dlen := 0, tsize := 0, rcnt := 0, state := .index, dirty := false,
    klen := 0, ck0 := 0, ck1 := 0, step := 0, events := 0 }

/-- `dasd_settype`, dasd.c 162-175: the table entry with that name (`none` is the result 0 and type -1). -/
def setType (name : String) : Option DiskType := diskTypes.find? (fun t => t.name == name)

/-- `dasd_setvolid`, dasd.c 177-190.  `volid` is the string before its NUL. -/
def setVolid (s : S) (volid : List Nat) : S :=
  { s with label := volid.take 8 ++ List.replicate (8 - volid.length) 0x20 }

/-! ### The host file -/

/-- `lseek(fd, pos, SEEK_SET); write(fd, bs, n)`. -/
def writeAt (f : List Nat) (pos : Nat) (bs : List Nat) : List Nat :=
  (f ++ List.replicate (pos - f.length) 0).take pos ++ bs ++ f.drop (pos + bs.length)

/-- `lseek(fd, pos, SEEK_SET); read(fd, .., n)`: the bytes obtained. -/
def readAt (f : List Nat) (pos n : Nat) : List Nat := (f.drop pos).take n

/-- `write(dasd->fd, dasd->cbuf, n)` at `pos`. -/
def flush (s : S) (pos n : Nat) : Res S :=
  match s.cbuf with
  | none => .oob
  | some b => if n ≤ b.length then .ok { s with file := writeAt s.file pos (b.take n) } else .oob

/-- `read(dasd->fd, dasd->cbuf, n)` at `pos`. -/
def load (s : S) (pos n : Nat) : Res S :=
  match s.cbuf with
  | none => .oob
  | some b =>
    let got := readAt s.file pos n
    if got.length ≤ b.length then .ok { s with cbuf := some (got ++ b.drop got.length) } else .oob

/-- `sizeof(struct dasd_header)`, dasd.h 143-153. -/
def hdrSize : Nat := 512

/-! ### Seeking and drive control -/

/-- `seek_callback`, dasd.c 257-293. -/
def seekDone (s : S) : Res S :=
  let s := { s with attn := true, diff := 0, flags := s.flags &&& 0xfe, ready := true }
  let fin := fun (s : S) => Res.ok { s with tstart := u32 (s.tsize * s.head) }
  if s.cyl ≠ s.ncyl then
    let tsize := u32 (s.tsize * s.ty.heads)
    let pos := u32 (tsize * s.ncyl) + hdrSize
    (if s.dirty then (flush s s.fpos tsize).bind fun s => .ok { s with dirty := false } else .ok s).bind fun s =>
    (load { s with fpos := u32 pos } (u32 pos) tsize).bind fun s =>
    fin { s with cyl := s.ncyl }
  else fin s

/-- One byte of the cylinder buffer. -/
def getB (s : S) (i : Nat) : Res Nat :=
  match s.cbuf with
  | none => .oob
  | some b => look b[i]?

/-- Store one byte of the cylinder buffer. -/
def setB (s : S) (i v : Nat) : Res S :=
  match s.cbuf with
  | none => .oob
  | some b => if i < b.length then .ok { s with cbuf := some (b.set i v) } else .oob

/-- Store consecutive bytes, `cbuf[pos++] = b` for each. -/
def setBs (s : S) (i : Nat) : List Nat → Res S
  | [] => .ok s
  | v :: vs => (setB s i v).bind fun s => setBs s (i + 1) vs

/-- `rec[i]` where `rec = &cbuf[rpos + tstart]`. -/
def recB (s : S) (i : Nat) : Res Nat := getB s (s.rpos + s.tstart + i)

/-- `(rec[0] & rec[1] & rec[2] & rec[3]) == 0xff`. -/
def atEnd (s : S) : Res Bool :=
  (recB s 0).bind fun a => (recB s 1).bind fun b => (recB s 2).bind fun c => (recB s 3).bind fun d =>
  .ok ((a &&& b &&& c &&& d) == 0xff)

/-- `klen = rec[5]; dlen = (rec[6] << 8) | rec[7]`. -/
def lengths (s : S) : Res S :=
  (recB s 5).bind fun k => (recB s 6).bind fun h => (recB s 7).bind fun l =>
  .ok { s with klen := k, dlen := (h <<< 8) ||| l }

/-- `dev_type == 0x14`. -/
def is14 (s : S) : Bool := s.ty.dev == 0x14

/-- `ck_sum[i & 1] ^= v`. -/
def ckx (s : S) (i v : Nat) : S := if i % 2 = 0 then { s with ck0 := s.ck0 ^^^ v } else { s with ck1 := s.ck1 ^^^ v }

/-- `ck_sum[0] = ck_sum[1] = 0xff`. -/
def ckInit (s : S) : S := { s with ck0 := 0xff, ck1 := 0xff }

/-- The same followed by `ck_sum[0] ^= sync` on a 2314, as in `dasd_update`. -/
def ckInitU (s : S) : S := if is14 s then { s with ck0 := 0xff ^^^ s.ty.sync, ck1 := 0xff } else ckInit s

/-- One pass of the loop of `dasd_update`, dasd.c 499-733, with `rpos`, `tpos`, `count`, `state` kept in the drive
(the C code keeps them in locals and stores them after the loop).  `count` here is the value after the `count++`. -/
def updStep (s : S) : Res S :=
  let c := s.count
  let da := s.tpos + s.tstart
  match s.state with
  | .index =>
    if c > s.ty.g4 then
      .ok (ckInitU { s with tstart := u32 (s.tsize * s.head), tpos := 0, rpos := 0, count := 0, state := .ha })
    else .ok { s with count := c + 1 }
  | .ha =>
    if c ≤ 4 then (recB s c).bind fun v => .ok { ckx s c v with tpos := s.tpos + 1, count := c + 1 }
    else if c = 6 then
      if is14 s then .ok { s with tpos := 5, rpos := 5, count := c + 1 }
      else .ok { s with tpos := 5, rpos := 5, count := 0, state := .gap1 }
    else if c = 8 then .ok { s with count := 0, state := .gap1 }
    else .ok { s with count := c + 1 }
  | .gap1 => if c < s.ty.g1 then .ok { s with count := c + 1 } else .ok (ckInitU { s with count := 0, state := .cnt0 })
  | .cnt0 =>
    if c = 0 then
      (atEnd s).bind fun e => if e then .ok { s with state := .fin, count := 1 }
        else (lengths s).bind fun s => .ok { s with count := 1 }
    else if c ≤ 8 then (recB s (c - 1)).bind fun v => .ok { ckx s (c - 1) v with tpos := s.tpos + 1, count := c + 1 }
    else if (c = 10 ∧ is14 s = false) ∨ c = 12 then
      .ok { s with state := if s.klen = 0 then .gap3 else .gap2, count := 0 }
    else .ok { s with count := c + 1 }
  | .am =>
    if c < s.ty.g2 then .ok { s with count := c + 1 }
    else (atEnd s).bind fun e => if e then .ok { s with state := .fin, count := 0 }
      else .ok { s with state := .cnt1, count := 0 }
  | .cnt1 =>
    if c = 0 then
      (atEnd s).bind fun e => if e then .ok { s with state := .fin, count := 1 }
        else (lengths s).bind fun s => .ok { s with count := 1 }
    else if c ≤ 8 then (recB s (c - 1)).bind fun v => .ok { ckx s (c - 1) v with tpos := s.tpos + 1, count := c + 1 }
    else if c = 10 then .ok { s with state := if s.klen = 0 then .gap3 else .gap2, count := 0 }
    else .ok { s with count := c + 1 }
  | .gap2 => if c < s.ty.g2 then .ok { s with count := c + 1 } else .ok (ckInitU { s with count := 0, state := .key })
  | .key =>
    (if c < s.klen then (getB s (da + c)).bind fun v => .ok { ckx s c v with tpos := s.tpos + 1 } else .ok s).bind fun s =>
    if c = s.klen + 2 then .ok (ckInitU { s with count := 0, state := .gap3 }) else .ok { s with count := c + 1 }
  | .gap3 => if c < s.ty.g2 then .ok { s with count := c + 1 } else .ok { s with count := 0, state := .data }
  | .data =>
    (if c < s.dlen then (getB s (da + c)).bind fun v => .ok { ckx s c v with tpos := s.tpos + 1 } else .ok s).bind fun s =>
    if c = s.dlen + 2 then .ok (ckInitU { s with rpos := s.tpos, count := 0, state := .am })
    else .ok { s with count := c + 1 }
  | .fin => .ok { s with count := c + 1 }
  | .unk => .ok { s with count := c + 1 }

/-- The loop of `dasd_update`, `n` passes. -/
def updLoop : Nat → S → Res S
  | 0, s => .ok s
  | n + 1, s => (updStep s).bind (updLoop n)

/-- `dasd_update`, dasd.c 459-739.  The `uint16_t` fields receive the locals at the end. -/
def update (s : S) : Res S :=
  (updLoop s.cpos { s with state := .index, count := 0, tpos := 0, rpos := 0 }).bind fun s =>
  .ok { s with count := u16 s.count, rpos := u16 s.rpos, tpos := u16 s.tpos }

/-- Head advance, dasd.c 362-371 and 375-385. -/
def headAdvance (s : S) : S :=
  let h := s.head + 1
  let (h, fl) := if h ≥ s.ty.heads then (0, s.flags ||| 4) else (h, s.flags)
  { s with head := h, flags := fl, tstart := u32 (s.tsize * h) }

/-- Seek start, dasd.c 325-334. -/
def ctlSeek (s : S) (fc : Nat) : S :=
  if fc &&& 0x20 ≠ 0 ∧ s.diff ≠ 0 then { s with events := s.events + 1, flags := s.flags ||| 1, ready := false } else s

/-- Head reset, dasd.c 335-338. -/
def ctlReset (s : S) (fc : Nat) : S := if fc &&& 0x10 ≠ 0 then { s with flags := s.flags &&& 0xF9 } else s

/-- Select head, dasd.c 339-342. -/
def ctlErase (s : S) (fc : Nat) : S := if fc &&& 0x04 ≠ 0 then { s with flags := s.flags ||| 0x10 } else s

/-- Recalibrate, dasd.c 343-352. -/
def ctlRecal (s : S) (fc : Nat) : S :=
  if fc &&& 0x02 ≠ 0 then
    { s with ncyl := 0, diff := 0, head := 0, flags := s.flags ||| 1, ready := false, tstart := u32 (s.tsize * 0),
             events := s.events + 1 }
  else s

/-- Head advance: at each such tag, or at every second control bit on a 2314, dasd.c 353-376. -/
def ctlHead (s : S) (ft fc : Nat) : S :=
  if is14 s = false then
    (if ft &&& 0x08 ≠ 0 then headAdvance s else s)
  else if fc &&& 0x01 ≠ 0 then
    (if s.flags &&& 0x8 ≠ 0 then { s with flags := s.flags &&& 0xf7 }
     else { headAdvance s with flags := (headAdvance s).flags ||| 0x8 })
  else s

/-- Read and write gate kept in the flags, dasd.c 377-378. -/
def ctlGate (s : S) (fc : Nat) : S := { s with flags := (s.flags &&& 0x3f) ||| (fc &&& 0xc0) }

/-- The control function of `dasd_settags` (tag bit 0), dasd.c 302-388. -/
def control (s : S) (ft fc : Nat) : Res S :=
  (if fc &&& 0x80 ≠ 0 ∧ s.state = .unk then update s else .ok s).bind fun s =>
  (if fc &&& 0x40 ≠ 0 then
    (if fc &&& 0x04 ≠ 0 ∧ s.state = .unk then update { s with attn := false } else .ok { s with attn := false }).bind fun s =>
    .ok (if is14 s then (if s.flags &&& 0x40 = 0 then { s with ams := true } else s)
      else { s with ams := fc &&& 0x05 == 0x05 })
   else .ok s).bind fun s =>
  .ok (ctlGate (ctlHead (ctlRecal (ctlErase (ctlReset (ctlSeek s fc) fc) fc) fc) ft fc) fc)

/-- Set cylinder, dasd.c 380-383. -/
def tagCyl (s : S) (ft fc : Nat) : S := if ft &&& 0x40 ≠ 0 then { s with ncyl := fc } else s

/-- Set head or direction, dasd.c 385-395. -/
def headDir (s : S) (fc : Nat) : S :=
  if s.ty.name = "2314" then { s with dir := fc &&& 0x80 ≠ 0, head := fc &&& 0xf }
  else if s.flags &&& 2 = 0 then { s with head := fc &&& 0xf, flags := s.flags ||| 2 }
  else { s with dir := fc &&& 0x80 ≠ 0 }

/-- Set head and sign, dasd.c 384-398. -/
def tagHead (s : S) (ft fc : Nat) : S :=
  if ft &&& 0x20 ≠ 0 then { headDir s fc with tstart := u32 ((headDir s fc).tsize * (headDir s fc).head) } else s

/-- Set difference, dasd.c 399-402. -/
def tagDiff (s : S) (ft fc : Nat) : S := if ft &&& 0x10 ≠ 0 then { s with diff := fc } else s

/-- `dasd_settags`, dasd.c 295-411. -/
def setTags (s : S) (ft fc : Nat) : Res S :=
  if ft &&& 0x01 = 0 then .ok s else
  (if ft &&& 0x80 ≠ 0 then control s ft fc else .ok s).bind fun s =>
  .ok (tagDiff (tagHead (tagCyl s ft fc) ft fc) ft fc)

/-- `dasd_gettags`, dasd.c 413-442. -/
def getTags (s : S) : Nat :=
  if s.opened = false then 0 else
  let r := 0x40 ||| (if s.flags &&& 4 ≠ 0 then 0x04 else 0)
  if is14 s then r ||| (if s.flags &&& 0x80 ≠ 0 then 0x10 else 0) ||| (if s.ready then 0 else 0x80)
  else r ||| (if s.ready then 0x80 else 0)

/-- `dasd_cur_cyl`, dasd.c 444-448 (`uint16_t` returned as `uint8_t`). -/
def curCyl (s : S) : Nat := u8 s.cyl

/-- `dasd_check_attn`, dasd.c 450-454. -/
def checkAttn (s : S) : Bool := s.attn

/-- `dasd_check_seek`, dasd.c 456-460. -/
def checkSeek (s : S) : Bool := s.flags &&& 1 ≠ 0

/-- `dasd_step`, dasd.c 747-769: the drive and the index flag. -/
def stepDisk (s : S) : S × Bool :=
  if s.step < s.ty.rate then ({ s with step := s.step + 1 }, false) else
  let s := { s with state := .unk, step := 0 }
  if s.cpos ≥ s.ty.bpt + 1 then ({ s with state := .index, cpos := 0 }, true)
  else ({ s with cpos := u16 (s.cpos + 1) }, false)

/-! ### Reading -/

/-- The in/out parameters `*data`, `*am`, `*ix`. -/
structure Io where
  data : Nat
  am : Bool
  ix : Bool
deriving Repr, DecidableEq

/-- What the `switch` of `dasd_read_byte` does at its end: `none` falls out of the switch, `some r` returns `r`. -/
abbrev Sw := S × Option Bool × Io

/-- `if (dasd->am_search) return 0; break;`. -/
def amRet (s : S) (io : Io) : Sw := (s, if s.ams then some false else none, io)

/-- After a count field: `state = klen == 0 ? GAP3 : GAP2; count = 0`. -/
def afterCount (s : S) : S := { s with state := if s.klen = 0 then .gap3 else .gap2, count := 0 }

/-- `case DK_POS_INDEX`, dasd.c 838-862. -/
def rdIndex (s : S) (c : Nat) (io : Io) : Res Sw :=
  if c = s.ty.g4 then
    .ok (ckInit { s with tstart := u32 (s.tsize * s.head), tpos := 0, rpos := 0, count := 0, state := .ha, ams := false },
      none, { io with data := s.ty.sync, am := is14 s || io.am })
  else .ok (s, some false, { io with ix := decide (c < 3) || io.ix })

/-- `case DK_POS_HA`, dasd.c 864-898. -/
def rdHa (s : S) (c : Nat) (io : Io) : Res Sw :=
  if c ≤ 4 then (recB s c).bind fun v => .ok ({ ckx s s.count v with tpos := u16 (s.tpos + 1) }, none, { io with data := v })
  else if c = 5 then .ok (s, none, { io with data := s.ck0 })
  else if c = 6 then
    .ok (if is14 s then { s with tpos := 5, rpos := 5 } else { s with tpos := 5, rpos := 5, state := .gap1, count := 0 },
      none, { io with data := s.ck1 })
  else if c = 7 then .ok (s, none, { io with data := 0x01 })
  else if c = 8 then .ok ({ s with state := .gap1, count := 0 }, none, { io with data := 0xff })
  else .ok (s, none, io)

/-- The byte at the end of a gap: the sync byte, on a 2314 the address mark `mark` with the AM line. -/
def syncIn (s : S) (io : Io) (mark : Nat) : Sw :=
  if is14 s then amRet { s with ams := false } { io with data := mark, am := true }
  else amRet s { io with data := s.ty.sync }

/-- `case DK_POS_GAP1`, dasd.c 900-924. -/
def rdGap1 (s : S) (c : Nat) (io : Io) : Res Sw :=
  if c = s.ty.g1 then
    (atEnd s).bind fun e =>
    if e then .ok ({ ckInit s with state := .fin }, some false, io)
    else .ok (syncIn (ckInit { s with count := 0, state := .cnt0 }) io 0x3)
  else .ok (s, some false, io)

/-- `case DK_POS_CNT0`, dasd.c 926-984. -/
def rdCnt0 (s : S) (c : Nat) (io : Io) : Res Sw :=
  (if c = 0 then
    (atEnd s).bind fun e =>
    (if e then .ok { s with rcnt := 0, state := .fin } else lengths { s with rcnt := 0 }).bind fun s =>
    .ok (s, { io with data := 0 })
  else if c ≤ 8 then
    (recB s (c - 1)).bind fun v => .ok ({ ckx s (c - 1) v with tpos := u16 (s.tpos + 1) }, { io with data := v })
  else if c = 9 then .ok (s, { io with data := s.ck0 })
  else if c = 10 then .ok (if is14 s then s else afterCount s, { io with data := s.ck1 })
  else if c = 11 then .ok (s, { io with data := 0x01 })
  else if c = 12 then .ok (afterCount s, { io with data := 0xff })
  else .ok (s, io)).bind fun x => .ok (amRet x.1 x.2)

/-- `case DK_POS_AM`, dasd.c 987-1018. -/
def rdAm (s : S) (c : Nat) (io : Io) : Res Sw :=
  if c = s.ty.g2 then
    (atEnd s).bind fun e =>
    if e then .ok (ckInit { s with state := .fin, count := 0 }, some false, { io with data := s.ty.sync })
    else .ok (ckInit { s with count := 0, state := .cnt1 }, none,
      if is14 s then { io with data := 0x6, am := true } else { io with data := s.ty.sync })
  else if c + 2 > s.ty.g2 then .ok ({ s with ams := false }, some false, { io with data := 0xff, am := true })
  else .ok (s, some false, io)

/-- The flag byte delivered before a count field, dasd.c 1037-1041. -/
def rnFlag (r0 n : Nat) : Nat := (if r0 &&& 0x80 ≠ 0 then 0x40 else 0) ||| (if n &&& 1 ≠ 0 then 0x80 else 0)

/-- `case DK_POS_CNT1`, dasd.c 1020-1092.  `rec[0] & 0x80` selects the overflow flag. -/
def rdCnt1 (s : S) (c : Nat) (io : Io) : Res Sw :=
  (if c = 0 then
    (atEnd s).bind fun e =>
    (if e then .ok { s with rcnt := u8 (s.rcnt + 1), state := .fin, count := 0 }
      else lengths { s with rcnt := u8 (s.rcnt + 1) }).bind fun s =>
    (recB s 0).bind fun r0 =>
    .ok ({ s with ck1 := s.ck1 ^^^ rnFlag r0 s.rcnt }, { io with data := rnFlag r0 s.rcnt })
  else if c = 1 then
    (recB s 0).bind fun v =>
    .ok ({ s with ck0 := s.ck0 ^^^ (v &&& 0x7f), tpos := u16 (s.tpos + 1) }, { io with data := v &&& 0x7f })
  else if c ≤ 8 then
    (recB s (c - 1)).bind fun v => .ok ({ ckx s (c - 1) v with tpos := u16 (s.tpos + 1) }, { io with data := v })
  else if c = 9 then .ok (s, { io with data := s.ck0 })
  else if c = 10 then .ok (if is14 s then s else afterCount s, { io with data := s.ck1 })
  else if c = 11 then .ok (s, { io with data := 0x01 })
  else if c = 12 then .ok (afterCount s, { io with data := 0xff })
  else .ok (s, io)).bind fun x => .ok (amRet x.1 x.2)

/-- `case DK_POS_GAP2` and `case DK_POS_GAP3`, dasd.c 1094-1114 and 1148-1167: `nxt` is the field that follows and
`mark` the sync byte a 2314 shows before it. -/
def rdGap (s : S) (c : Nat) (io : Io) (nxt : Pos) (mark : Nat) : Res Sw :=
  if c = s.ty.g2 then
    .ok (syncIn (ckInit { s with count := 0, state := nxt }) io mark)
  else .ok (s, some false, io)

/-- `case DK_POS_KEY`, dasd.c 1116-1146.  `da` is the byte under the head. -/
def rdKey (s : S) (c da : Nat) (io : Io) : Res Sw :=
  (if c < s.klen then
    (getB s da).bind fun v => .ok ({ ckx s c v with tpos := u16 (s.tpos + 1) }, { io with data := v })
  else if c - s.klen = 0 then .ok (s, { io with data := s.ck0 })
  else if c - s.klen = 1 then
    .ok (if is14 s then s else { s with state := .gap3, count := 0 }, { io with data := s.ck1 })
  else if c - s.klen = 2 then .ok (s, { io with data := 0x01 })
  else if c - s.klen = 3 then .ok ({ s with state := .gap3, count := 0 }, { io with data := 0xff })
  else .ok (s, io)).bind fun x => .ok (amRet x.1 x.2)

/-- `case DK_POS_DATA`, dasd.c 1170-1201. -/
def rdData (s : S) (c da : Nat) (io : Io) : Res Sw :=
  (if c < s.dlen then
    (getB s da).bind fun v => .ok ({ ckx s c v with tpos := u16 (s.tpos + 1) }, { io with data := v })
  else if c - s.dlen = 0 then .ok (s, { io with data := s.ck0 })
  else if c - s.dlen = 1 then
    .ok (if is14 s then { s with rpos := s.tpos } else { s with rpos := s.tpos, state := .am, count := 0 },
      { io with data := s.ck1 })
  else if c - s.dlen = 2 then .ok (s, { io with data := 0x01 })
  else if c - s.dlen = 3 then .ok ({ s with state := .am, count := 0 }, { io with data := 0xff })
  else .ok (s, io)).bind fun x => .ok (amRet x.1 x.2)

/-- `cpos = 0; state = INDEX; *ix = 1` when the end of the track is reached, dasd.c 1209-1213 and 1216-1220. -/
def wrap (s : S) (io : Io) : S × Io :=
  if s.cpos ≥ s.ty.bpt + 1 then ({ s with cpos := 0, state := .index }, { io with ix := true }) else (s, io)

/-- `case DK_POS_END`, dasd.c 1203-1214. -/
def rdFin (s : S) (io : Io) : Res Sw :=
  .ok ((wrap { s with count := 0, klen := 0, dlen := 0 } io).1, some false, (wrap { s with count := 0, klen := 0, dlen := 0 } io).2)

/-- The `switch` of `dasd_read_byte`, dasd.c 837-1215. -/
def rdSwitch (s : S) (c da : Nat) (io : Io) : Res Sw :=
  match s.state with
  | .index => rdIndex s c io
  | .ha => rdHa s c io
  | .gap1 => rdGap1 s c io
  | .cnt0 => rdCnt0 s c io
  | .am => rdAm s c io
  | .cnt1 => rdCnt1 s c io
  | .gap2 => rdGap s c io .key 0x02
  | .key => rdKey s c da io
  | .gap3 => rdGap s c io .data 0x01
  | .data => rdData s c da io
  | .fin => rdFin s io
  | .unk => .ok (s, none, io)

/-- The index reached before the byte, dasd.c 818-827. -/
def rdIx (s : S) : S :=
  if s.cpos ≥ s.ty.bpt + 1 then
    { s with step := 0, tstart := u32 (s.tsize * s.head), state := .index, cpos := 65535, tpos := 0, count := 0 }
  else { s with step := 0 }

/-- The end of `dasd_read_byte`, dasd.c 1216-1224. -/
def rdOut : Sw → S × Bool × Io
  | (s, some r, io) => (s, r, io)
  | (s, none, io) => ((wrap s io).1, !(wrap s io).1.ams, (wrap s io).2)

/-- One byte time of `dasd_read_byte`, dasd.c 828-1224. -/
def rdTick (s : S) (io : Io) : Res (S × Bool × Io) :=
  (rdSwitch { s with cpos := u16 (s.cpos + 1), count := u16 (s.count + 1), dirty := true } s.count (s.tpos + s.tstart) io).bind
    fun x => .ok (rdOut x)

/-- `dasd_read_byte`, dasd.c 776-1224: the drive, the result and the parameters. -/
def readByte (s : S) (io : Io) : Res (S × Bool × Io) :=
  if s.step < s.ty.rate then .ok ({ s with step := s.step + 1 }, false, io) else
  rdTick (rdIx s) (if s.cpos ≥ s.ty.bpt + 1 then { io with am := false, ix := true } else { io with am := false })

/-! ### Writing -/

/-- `for (i = 0; i < 8; i++) rec[i] = 0xff;` with `rec` at buffer offset `p`. -/
def wipe (s : S) (p : Nat) : Res S := setBs s p (List.replicate 8 0xff)

/-- The overrun of a gap, dasd.c 1338-1347 and 1549-1558: back to record zero, whose count field is wiped. -/
def overrun (s : S) : Res S :=
  wipe (ckInit { s with tpos := 5, rpos := 5, count := 0, state := .fin }) (5 + s.tstart)

/-- The start of a field: `count = 0; ck_sum = 0xff`. -/
def enter (s : S) (p : Pos) : S := ckInit { s with count := 0, state := p }

/-- `if (*data == z) count = 0; if (*data == 0xff) count += k;` with `k` modulo 65536. -/
def gapByte (s : S) (z k d : Nat) : S :=
  { s with count := if d = z then 0 else if d = 0xff then u16 (s.count + k) else s.count }

/-- `case DK_POS_INDEX`, dasd.c 1269-1297. -/
def wrIndex (s : S) (d : Nat) : Res S :=
  .ok (if d = (if is14 s then 0xd else 0xe) then enter { s with tpos := 0, rpos := 0 } .ha else gapByte s 0 1 d)

/-- `case DK_POS_HA`, dasd.c 1299-1330. -/
def wrHa (s : S) (c d : Nat) : Res S :=
  if c ≤ 4 then (setB { s with tpos := u16 (s.tpos + 1) } (s.rpos + s.tstart + c) d).bind fun s => .ok (ckx s c d)
  else if c = 6 then
    .ok (if is14 s then ckInit { s with tpos := 5, rpos := 5 }
      else ckInit { s with tpos := 5, rpos := 5, state := .gap1, count := 0 })
  else if c = 8 then .ok { s with state := .gap1, count := 0 }
  else .ok s

/-- `case DK_POS_GAP1`, dasd.c 1332-1378.  `rec` is first the record under the head when the call started. -/
def wrGap1 (s : S) (d : Nat) : Res S :=
  (if (gapByte s 0 65535 d).count ≥ s.ty.g1 then (overrun s).bind fun s => .ok (s, 5 + s.tstart)
    else .ok (gapByte s 0 65535 d, s.rpos + s.tstart)).bind fun x =>
  if d = (if is14 s then 0xb else 0xe) then
    wipe (enter { x.1 with tpos := 5, rpos := 5 } .cnt0) (5 + s.tstart)
  else wipe x.1 x.2

/-- `*data |= (klen & 0x40) ? 0x80 : 0`. -/
def ovf (s : S) (d : Nat) : Nat := d ||| (if s.klen &&& 0x40 ≠ 0 then 0x80 else 0)

/-- The count byte stored: the first one receives the overflow bit kept in `klen`. -/
def cntB (s : S) (c d : Nat) : Nat := if c = 1 then ovf s d else d

/-- `case DK_POS_CNT0`, dasd.c 1380-1437. -/
def wrCnt0 (s : S) (c d : Nat) : Res (S × Nat) :=
  if c = 0 then .ok ({ s with klen := d }, d)
  else if c ≤ 8 then
    (setB { s with tpos := u16 (s.tpos + 1), klen := if c = 1 then 0 else s.klen } (s.rpos + s.tstart + (c - 1))
      (cntB s c d)).bind fun t => .ok (ckx t (c - 1) (cntB s c d), cntB s c d)
  else if c = 10 then
    (lengths s).bind fun s => .ok (if is14 s then ckInit s else ckInit (afterCount s), d)
  else if c = 12 then
    (recB s 5).bind fun k => .ok ({ s with state := if k = 0 then .gap3 else .gap2, count := 0 }, d)
  else .ok (s, d)

/-- `case DK_POS_AM`, dasd.c 1439-1466. -/
def wrAm (s : S) (d : Nat) (am : Bool) : Res S :=
  (if am then wipe s (s.rpos + s.tstart) else .ok s).bind fun s =>
  (if d = 0 then .ok { s with count := 0 }
   else if d = 0xff then
    (if u8 (s.ck0 + 1) > s.ty.g1 - 1 + 10 then wipe { s with count := s.ty.g1 - 1, ck0 := u8 (s.ck0 + 1) } (s.rpos + s.tstart)
     else .ok { s with count := s.ty.g1 - 1, ck0 := u8 (s.ck0 + 1) })
   else .ok s).bind fun s =>
  if d = 0xe ∧ s.count ≥ s.ty.g1 then wipe (enter s .cnt1) (s.rpos + s.tstart) else .ok s

/-- `case DK_POS_CNT1`, dasd.c 1468-1502.  The first check byte already ends the field. -/
def wrCnt1 (s : S) (c da d : Nat) : Res (S × Nat) :=
  if c = 0 then .ok ({ s with rcnt := u8 (s.rcnt + 1), rpos := s.tpos, klen := d }, d)
  else if c ≤ 8 then
    (setB { s with tpos := u16 (s.tpos + 1), klen := if c = 1 then 0 else s.klen } da (cntB s c d)).bind fun t =>
    .ok (ckx t (t.count + 65535) (cntB s c d), cntB s c d)
  else if c = 9 ∨ c = 10 then
    (lengths s).bind fun s => .ok ({ ckInit (afterCount s) with count := 65535 }, d)
  else .ok (s, d)

/-- `case DK_POS_GAP2`, dasd.c 1504-1534. -/
def wrGap2 (s : S) (d : Nat) : Res S :=
  .ok (if d = (if is14 s then 0xa else 0xe) then enter s .key else gapByte s 0 65535 d)

/-- `case DK_POS_KEY`, dasd.c 1536-1545. -/
def wrKey (s : S) (da d : Nat) : Res S :=
  if s.count ≤ s.klen then
    (setB { s with tpos := u16 (s.tpos + 1) } da d).bind fun s => .ok (ckx s s.count d)
  else if s.count = s.klen + 2 then .ok { s with state := .gap3, count := 0 }
  else .ok s

/-- `case DK_POS_GAP3`, dasd.c 1547-1593. -/
def wrGap3 (s : S) (d : Nat) : Res S :=
  (if (gapByte s 0xcc 65535 d).count ≥ s.ty.g2 then overrun s else .ok (gapByte s 0xcc 65535 d)).bind fun s =>
  .ok (if d = (if is14 s then 0x9 else 0xe) then enter s .data else s)

/-- `case DK_POS_DATA`, dasd.c 1595-1608. -/
def wrData (s : S) (da d : Nat) : Res S :=
  if s.count ≤ s.dlen then
    (setB { s with tpos := u16 (s.tpos + 1) } da d).bind fun s => .ok (ckx s s.count d)
  else if s.count = s.dlen + 2 then .ok { s with state := .am, rpos := s.tpos, count := 0, ck0 := 0 }
  else .ok s

/-- The `switch` of `dasd_write_byte`, dasd.c 1268-1616: the drive and `*data`. -/
def wrSwitch (s : S) (c da d : Nat) (am : Bool) : Res (S × Nat) :=
  match s.state with
  | .index => (wrIndex s d).bind fun s => .ok (s, d)
  | .ha => (wrHa s c d).bind fun s => .ok (s, d)
  | .gap1 => (wrGap1 s d).bind fun s => .ok (s, d)
  | .cnt0 => wrCnt0 s c d
  | .am => (wrAm s d am).bind fun s => .ok (s, d)
  | .cnt1 => wrCnt1 s c da d
  | .gap2 => (wrGap2 s d).bind fun s => .ok (s, d)
  | .key => (wrKey s da d).bind fun s => .ok (s, d)
  | .gap3 => (wrGap3 s d).bind fun s => .ok (s, d)
  | .data => (wrData s da d).bind fun s => .ok (s, d)
  | .fin => .ok ({ s with tpos := u16 (s.tpos + 10), count := 0, klen := 0, dlen := 0 }, d)
  | .unk => .ok (s, d)

/-- The end of the track reached before the byte, dasd.c 1251-1259. -/
def wrIx (s : S) : S :=
  if s.tpos ≥ s.tsize then { s with step := 0, state := .index, cpos := 65535, tpos := 65535, count := 0 }
  else { s with step := 0 }

/-- The end of `dasd_write_byte`, dasd.c 1617-1624. -/
def wrOut (s : S) (io : Io) : S × Bool × Io :=
  if s.cpos ≥ s.ty.bpt + 1 then ({ s with cpos := 65535, state := .index }, true, { io with ix := true })
  else (s, true, io)

/-- One byte time of `dasd_write_byte`, dasd.c 1261-1624. -/
def wrTick (s : S) (io : Io) : Res (S × Bool × Io) :=
  (wrSwitch { s with count := u16 (s.count + 1), cpos := u16 (s.cpos + 1) } s.count (s.tpos + s.tstart) io.data io.am).bind
    fun x => .ok (wrOut x.1 { io with data := x.2 })

/-- `dasd_write_byte`, dasd.c 1226-1624. -/
def writeByte (s : S) (io : Io) : Res (S × Bool × Io) :=
  if s.step < s.ty.rate then .ok ({ s with step := s.step + 1 }, false, io) else
  wrTick (wrIx s) (if s.tpos ≥ s.tsize then { io with ix := true } else io)

/-! ### Formatting and attaching -/

/-- `ipl1rec`, `ipl2key`, `volrec`, dasd.c 1826-1846. -/
def ipl1rec : List Nat := [0xC9,0xD7,0xD3,0xF1, 0,6,0,0,0,0,0,0x0F, 3,0,0,0,0,0,0,1, 0,0,0,0,0,0,0,0]
def ipl2key : List Nat := [0xC9,0xD7,0xD3,0xF2]
def volrec : List Nat :=
  [0xE5,0xD6,0xD3,0xF1, 0xE5,0xD6,0xD3,0xF1, 0xF1,0xF1,0xF1,0xF1,0xF1,0xF1, 0x40,0,0,0,1,1] ++
  List.replicate 25 0x40 ++ [0xE2,0xC9,0xD4,0xC8] ++ List.replicate 35 0x40

/-- `hdr.tracksize`, `(bpt | 0x1ff) + 1`, dasd.c 1864 and 1988. -/
def trackSize (t : DiskType) : Nat := (t.bpt ||| 0x1ff) + 1

/-- A little-endian integer of `n` bytes, as the host (assumed little-endian) stores it. -/
def le : Nat → Nat → List Nat
  | 0, _ => []
  | n + 1, v => v % 256 :: le n (v / 256)

/-- The little-endian value of some bytes. -/
def ofLe : List Nat → Nat
  | [] => 0
  | b :: bs => b + 256 * ofLe bs

/-- The header written by `dasd_format`, dasd.c 1860-1867. -/
def header (t : DiskType) : List Nat :=
  "CKD_P370".toList.map (·.toNat) ++ le 4 t.heads ++ le 4 (trackSize t) ++ [u8 t.dev, 0] ++ le 2 t.cyl ++
  List.replicate 492 0

/-- The bytes of the volume record: `volrec[p]`, except that bytes 8 to 16 come from the label while it is not NUL,
dasd.c 1934-1940.  `label[p - 8]` past the stored label is the NUL.  The label is `char`, signed on the host, so a
value of 128 or more indexes outside `ascii_to_ebcdic`. -/
def volBytes (label : List Nat) : List (Nat × Nat) → Res (List Nat)
  | [] => .ok []
  | (p, v) :: rest =>
    (if 8 ≤ p ∧ p ≤ 16 ∧ label.getD (p - 8) 0 ≠ 0 then look (asciiToEbcdic (label.getD (p - 8) 0)) else .ok v).bind fun b =>
    (volBytes label rest).bind fun bs => .ok (b :: bs)

/-- `volrec` with its indices. -/
def volIdx : List (Nat × Nat) := (List.range volrec.length).zip volrec

/-- `(cyl >> 8), (cyl & 0xff), (hd >> 8), (hd & 0xff)` stored as bytes. -/
def cchh (cyl hd : Nat) : List Nat := [u8 (cyl >>> 8), cyl &&& 0xff, u8 (hd >>> 8), hd &&& 0xff]

/-- The body of the head loop of `dasd_format` at buffer position `pos`, dasd.c 1881-1953. -/
def formatTrack (s : S) (flag : Bool) (cyl hd pos : Nat) : Res S :=
  (setBs s pos (0 :: cchh cyl hd ++ cchh cyl hd ++ [0, 0, 0, 8])).bind fun s =>
  (setBs s (pos + 13 + 8) (cchh cyl hd ++ [1])).bind fun s =>
  (if cyl = 0 ∧ hd = 0 ∧ flag then
    (setBs s (pos + 26) ([4, 0, 24] ++ ipl1rec ++ cchh cyl hd ++ [2] ++ [4, 0, 144] ++ ipl2key)).bind fun s =>
    (setBs s (pos + 69 + 144) (cchh cyl hd ++ [3] ++ [4, 0, 80])).bind fun s =>
    (volBytes s.label volIdx).bind fun vb =>
    (setBs s (pos + 221) vb).bind fun s => .ok (s, pos + 305)
   else (setBs s (pos + 26) [0, 0, 0]).bind fun s => .ok (s, pos + 29)).bind fun x =>
  setBs x.1 x.2 [0xff, 0xff, 0xff, 0xff]

/-- The head loop, `n` heads from `hd` on. -/
def formatHeads (flag : Bool) (cyl : Nat) : Nat → Nat → S → Res S
  | 0, _, s => .ok s
  | n + 1, hd, s => (formatTrack s flag cyl hd (hd * s.tsize)).bind (formatHeads flag cyl n (hd + 1))

/-- The cylinder loop, `n` cylinders from `cyl` on, dasd.c 1878-1962: the file is written sequentially. -/
def formatCyls (flag : Bool) : Nat → Nat → S → Res S
  | 0, _, s => .ok s
  | n + 1, cyl, s =>
    (formatHeads flag cyl s.ty.heads 0 s).bind fun s =>
    let tsize := s.tsize * s.ty.heads
    (flush s (hdrSize + cyl * tsize) tsize).bind fun s =>
    (match s.cbuf with
     | none => Res.oob
     | some b => .ok { s with cbuf := some (List.replicate tsize 0 ++ b.drop tsize) }).bind (formatCyls flag n (cyl + 1))

/-- The allocation of the cylinder buffer when there is none. -/
def alloc (s : S) (n : Nat) : S := { s with cbuf := some (s.cbuf.getD (List.replicate n 0)) }

/-- `dasd_format` on an open file, dasd.c 1848-1964. -/
def format (s : S) (flag : Bool) : Res S :=
  let s := { s with file := writeAt s.file 0 (header s.ty), tsize := trackSize s.ty }
  formatCyls flag s.ty.cyl 0 (alloc s (s.tsize * s.ty.heads))

/-- `dasd_detach`, dasd.c 2077-2096 (`fd >= 0` when `dirty`; the file is only written when a buffer is dirty). -/
def detach (s : S) : Res S :=
  (if s.dirty then (flush s s.fpos (u32 (s.tsize * s.ty.heads))).bind fun s => .ok { s with dirty := false } else .ok s).bind
  fun s => .ok { s with cbuf := none, opened := false, online := false, ready := false }

/-- The magic number test, dasd.c 1996-1997. -/
def magic (f : List Nat) : Bool := decide (hdrSize ≤ f.length) && f.take 8 == "CKD_P370".toList.map (·.toNat)

/-- The header fields `heads`, `tracksize`, `devtype` of the image. -/
def hdrHeads (f : List Nat) : Nat := ofLe (readAt f 8 4)
def hdrTrack (f : List Nat) : Nat := ofLe (readAt f 12 4)
def hdrDev (f : List Nat) : Nat := f.getD 16 0

/-- The search for the drive type, dasd.c 2021-2035: the expected size counts one cylinder more than the table has. -/
def matchType (f : List Nat) : Option DiskType :=
  diskTypes.find? fun t =>
    hdrDev f == t.dev && hdrTrack f == trackSize t && hdrHeads f == t.heads &&
    hdrSize + trackSize t * t.heads * (t.cyl + 1) == f.length

/-- `pos += 8 + rec[5] + ((rec[6] << 8) | rec[7])`. -/
def skipRec (s : S) (pos : Nat) : Res Nat :=
  (getB s (pos + 5)).bind fun k => (getB s (pos + 6)).bind fun h => (getB s (pos + 7)).bind fun l =>
  .ok (pos + 8 + k + ((h <<< 8) ||| l))

/-- The loop comparing `rec[8 + i]` with `volrec[i]` from `i` on, `n` times. -/
def isVol (s : S) (r : Nat) : Nat → Nat → Res Bool
  | 0, _ => .ok true
  | n + 1, i => (getB s (r + 8 + i)).bind fun v => if v = volrec.getD i 0 then isVol s r n (i + 1) else .ok false

/-- The loop storing `ebcdic_to_ascii[rec[16 + i]]`, `n` characters from `i` on. -/
def volName (s : S) (r : Nat) : Nat → Nat → Res (List Nat)
  | 0, _ => .ok []
  | n + 1, i => (getB s (r + 16 + i)).bind fun v => (look (ebcdicToAscii v)).bind fun c =>
    (volName s r n (i + 1)).bind fun cs => .ok (c :: cs)

/-- Loading the volume label from record 3 of the first track, dasd.c 2057-2074.  (A label containing NUL is kept with
its 8 characters.) -/
def readLabel (s : S) : Res S :=
  (skipRec s 5).bind fun p1 => (skipRec s p1).bind fun p2 => (skipRec s p2).bind fun r =>
  (getB s (r + 5)).bind fun k => (getB s (r + 6)).bind fun h => (getB s (r + 7)).bind fun l =>
  if k ≠ 4 ∨ h ≠ 0 ∨ l ≠ 80 then .ok s else
  (isVol s r 8 0).bind fun v =>
  if v = false then .ok s else (volName s r 8 0).bind fun n => .ok { s with label := n }

/-- The drive takes over the type found, dasd.c 2027-2031. -/
def retype (s : S) : S := match matchType s.file with | some t => { s with ty := t } | none => s

/-- The second half of `dasd_attach`, after the header is there, dasd.c 2015-2075. -/
def openImage (s : S) : Res S :=
  let s := retype s
  let tsize := u32 (hdrTrack s.file * hdrHeads s.file)
  let s := alloc { s with tsize := hdrTrack s.file } tsize
  (load s hdrSize tsize).bind fun s =>
  readLabel { s with fpos := hdrSize, online := true, ready := true, cyl := 0, tstart := 0 }

/-- `dasd_attach` on a file that can be opened and has content `file` (created empty), dasd.c 1966-2075. -/
def attach (s : S) (file : List Nat) (init : Bool) : Res S :=
  (if magic file = false ∨ init then format { s with opened := true, file := file } init
   else .ok { s with opened := true, file := file }).bind openImage

end Verif.Dasd
