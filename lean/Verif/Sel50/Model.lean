import Verif.Bus.Model

/-!
# Model 2050: the selector channels

/repo/src/model2050/cpu2050.c lines 5182-6229: once per machine cycle each of the three selector
channels looks at its interface and at the signals of the microprogram.  The microprogram itself and
the devices are the environment here: the signals `dtc1`, `dtc2`, `last_cycle`, `first_cycle`, the
adder latch and the tag lines left by the devices are arbitrary.  Modelled with them are the places
in which the microprogram changes registers of the channel while data moves (lines 2803-2812,
2997-3001, 3072-3076, 3177-3214).

Not modelled: logging, the registers `POS_REG`, `D1`, `C4`, which nothing reads. `0xff << 24` of
lines 6094, 6139, 6184, an overflow of `int` by the letter of C, is taken as compilers do.
-/

namespace Verif.Sel50
open Verif.Bus (Tags)

abbrev W := BitVec 32
abbrev B := BitVec 8

/-- `odd_parity[b]` of xlat.c line 100 is 0x100 for the bytes with an even number of ones. -/
def oddPar (b : B) : Bool := (List.range 8).foldl (fun p k => p != b.getLsbD k) true

/-- What comes from the interface in one cycle: the tag lines after all devices have been called
(`TAGS_IN[ch]`, lines 5275-5279), and `BUS_IN[ch]`. -/
structure In where
  t : Tags
  data : B
  par : Bool
deriving DecidableEq, Repr

/-- `((BUS_IN ^ odd_parity[BUS_IN & 0xff]) & 0x100) != 0`. -/
def In.badPar (n : In) : Bool := n.par != oddPar n.data

/-- Registers of one selector channel, model2050.h 199-252. Bits of `Tags` for inbound lines are not
used in `tags`. -/
structure Chan where
  /-- `TAGS[ch]` -/
  tags : Tags := {}
  /-- `BUS_OUT[ch]`, data and parity -/
  busOut : B := 0
  busPar : Bool := false
  /-- `GP_REG`: byte position (60), end position (18), one, two, three more words (4, 2, 1) -/
  gp : B := 0
  /-- `OP_REG`: 1 write, 4 read, 6 read backward -/
  op : B := 0
  /-- `FLAGS_REG`: flags of the CCW in the left byte, checks in the right one -/
  flags : BitVec 16 := 0
  chpos : BitVec 16 := 0
  chreq : B := 0
  chclk : Nat := 0
  iostat : B := 0
  bReg : W := 0
  cReg : W := 0
  bFull : Bool := false
  cFull : Bool := false
  lsFull : Bool := false
  cci : BitVec 4 := 0
  cbi : BitVec 4 := 0
  cli : BitVec 4 := 0
  ifStop : Bool := false
  eor : Bool := false
  c1 : Bool := false
  c2 : Bool := false
  c3 : Bool := false
  d2 : Bool := false
  cd : Bool := false
  polling : Bool := false
  routine : Nat := 0

/-- What the channels share with each other and with the processor. -/
structure Glob where
  /-- signals of the microinstruction of this cycle, lines 2199-2245 -/
  dtc1 : Bool := false
  dtc2 : Bool := false
  /-- `first_cycle`, `last_cycle` -/
  first : Bool := false
  last : Bool := false
  /-- `aob_latch` -/
  aob : W := 0
  /-- `L_REG` -/
  l : W := 0
  breakIn : BitVec 4 := 0
  breakOut : Bool := false
  instLatch : Bool := false
  /-- `CH`: the channel whose routine is running -/
  ch : Nat := 0
  chctl : B := 0
  cc : BitVec 2 := 0
  /-- `S_REG` -/
  s : B := 0
  bchi : B := 0

/-- One channel at work. `spill`: a word written to `B_REG[CH]` with `B_FULL[CH]` (lines
5777-5778). -/
structure X where
  c : Chan
  g : Glob
  spill : Option W := none

/-- `BIT0 >> i`, `BIT1 >> i`. -/
def bit0 (i : Nat) : B := 0x80#8 >>> i
def bit1 (i : Nat) : B := 0x40#8 >>> i

/-- `1 << i` in `break_in`. -/
def mask (i : Nat) : BitVec 4 := 1#4 <<< i

/-- Lines 5183-5267 for one channel: a request of the channel is accepted
and the routine of the microprogram asked for. The whole is under `last_cycle || break_out == 0`
(line 5183). -/
def accept (i : Nat) (x : X) : X :=
  if !(x.g.last || !x.g.breakOut) then x
  else if x.c.chpos != 0 || x.g.breakOut || (x.g.breakIn &&& mask i != 0) then x
  else match x.c.chreq with
  | 0x80 =>
    if x.c.op = 1 then
      { x with c := { x.c with routine := 0x20, chpos := 0x08, chclk := 0, chreq := 0 },
               g := { x.g with breakIn := x.g.breakIn ||| mask i } }
    else
      { x with c := { x.c with routine := 0x24, chpos := 0x10, chclk := 0, chreq := 0,
                               iostat := (if x.c.lsFull then 0x10 else 0) |||
                                 (if x.c.op &&& 2 != 0 then 0x40 else 0) |||
                                 (if x.c.flags &&& 0x1000 != 0 then 0x20 else 0) },
               g := { x.g with breakIn := x.g.breakIn ||| mask i } }
  | 0x40 => { x with c := { x.c with routine := 0x04, chpos := 0x01, chclk := 0, chreq := 0 },
                     g := { x.g with breakIn := x.g.breakIn ||| mask i } }
  | 0x20 => { x with c := { x.c with routine := 0x08, chpos := 0x100, chclk := 0, chreq := 0 },
                     g := { x.g with breakIn := x.g.breakIn ||| mask i } }
  | 0x10 => { x with c := { x.c with routine := 0x0c, chpos := 0x04, chclk := 0, chreq := 0 },
                     g := { x.g with breakIn := x.g.breakIn ||| mask i } }
  | 0x08 =>
    if x.g.instLatch && decide (i = ((x.g.l.toNat / 256 + 2 ^ 24 - 1) % 4)) then
      { x with c := { x.c with routine := 0x10, flags := 0, chpos := 0x80, chclk := 0, chreq := 0 },
               g := { x.g with breakIn := x.g.breakIn ||| mask i } }
    else
      { x with c := { x.c with routine := if x.c.d2 then 0x2c else 0x28, chpos := 0x80, chclk := 0,
                               chreq := 0 },
               g := { x.g with breakIn := x.g.breakIn ||| mask i } }
  | 0x04 => { x with c := { x.c with routine := 0x14, chpos := 0x02, chclk := 0, chreq := 0 },
                     g := { x.g with breakIn := x.g.breakIn ||| mask i } }
  | 0x28 => { x with c := { x.c with chpos := 0x20, chclk := 0, chreq := 0 } }
  | _ => { x with c := { x.c with chreq := 0 } }

/-- `inst`, line 5274. -/
def inst (i : Nat) (g : Glob) : Bool := g.instLatch && decide (g.ch = i)

/-- Positions 200 and 400, lines 5281-5290: transfers from and to local storage end. -/
def posLs (x : X) : X :=
  if x.c.chpos = 0x200 ∧ x.g.last then { x with c := { x.c with chpos := 0 } }
  else if x.c.chpos = 0x400 ∧ x.g.last then
    { x with c := { x.c with chclk := 0, chpos := 0, bReg := x.g.aob, lsFull := false,
                             bFull := true } }
  else x

/-- Position 100, fetch of the unit address, lines 5292-5303. -/
def posUa (x : X) : X :=
  if x.c.chpos = 0x100 ∧ x.g.dtc2 then
    { x with g := { x.g with dtc2 := false },
             c := { x.c with cReg := x.g.aob, bReg := 0, chreq := 0x28, chpos := 0,
                             tags := { x.c.tags with opr := true } } }
  else x

/-- The command of line 5328, with data chaining all but transfer in channel ignored (lines
5330-5340). -/
def ccwCmd (c : Chan) (aob : W) : B :=
  if c.cd = false then (aob >>> 24).setWidth 8 &&& 0x0f
  else if (aob >>> 24).setWidth 8 &&& 0x0f = 8#8 then 8 else 0

/-- Second signal of the first half of a CCW, lines 5323-5372. -/
def ccw1b (i : Nat) (g : Glob) (c : Chan) : Chan :=
  if ccwCmd c g.aob = 8 then
    if inst i g then
      { c with chclk := 2, cReg := c.bReg, bReg := g.aob, iostat := 0, cci := 0,
               flags := c.flags ||| 0x20 }
    else if c.d2 then
      { c with chclk := 2, cReg := c.bReg, bReg := g.aob, iostat := 0, cci := 0,
               flags := c.flags ||| 0x20, d2 := false }
    else
      { c with chclk := 2, cReg := c.bReg, bReg := g.aob, iostat := 0x20, cci := 0, d2 := true }
  else
    { c with chclk := 2, cReg := c.bReg, bReg := g.aob, cci := 0, d2 := false,
             flags := (if c.cd = false ∧ ccwCmd c g.aob = 0 then c.flags ||| 0x20 else c.flags),
             iostat := (if c.cd = false ∧ ccwCmd c g.aob = 12 then 0x40 else 0),
             op := (if c.cd then c.op
                    else if ccwCmd c g.aob &&& 1 = 1 then 1
                    else if ccwCmd c g.aob = 12 then 6 else 4),
             gp := (((if c.cd then c.gp
                    else if ccwCmd c g.aob &&& 1 = 1 then 1
                    else if ccwCmd c g.aob = 12 then 6 else 4) &&& 0x9f) |||
                    ((g.aob &&& 3).setWidth 8 <<< 5)) }

/-- Position 80, first half of a CCW, lines 5304-5387. -/
def posCcw1 (i : Nat) (x : X) : X :=
  if x.c.chpos = 0x80 then
    (fun y : X => if y.g.last then
      { y with c := { y.c with routine := 0x30, chpos := 0x40, chclk := 0 },
               g := { y.g with breakIn := y.g.breakIn ||| mask i } } else y)
    (if x.g.dtc2 then
      match x.c.chclk with
      | 0 => { x with g := { x.g with dtc2 := false },
                      c := { x.c with chclk := 1, tags := { x.c.tags with opr := true },
                                      bReg := x.g.aob, c1 := false,
                                      flags := x.c.flags &&& 0x08ff } }
      | 1 => { x with g := { x.g with dtc2 := false }, c := ccw1b i x.g x.c }
      | 2 => { x with g := { x.g with dtc2 := false, bchi := x.g.bchi ||| bit0 i },
                      c := { x.c with flags := x.c.flags ||| 0x20, chclk := 0, chpos := 0 } }
      | _ => { x with g := { x.g with dtc2 := false } }
     else x)
  else x

/-- Third signal of the second half, the case without a check: lines 5410-5412, 5427-5465. -/
def ccw2c (g : Glob) (c : Chan) : Chan :=
  { c with
    chclk := 0, chpos := 0,
    cFull := (if c.cd = false ∨ c.d2 then false else c.cFull),
    gp := (if c.op = 1 then
      (if (g.aob &&& 0xffff).toNat + (c.gp >>> 5 &&& 3).toNat < 4 then
        (c.gp &&& 0x67) ||| (BitVec.ofNat 8 ((g.aob &&& 0xffff).toNat + (c.gp >>> 5 &&& 3).toNat + 1)
          &&& 3)
       else c.gp) &&& 0xf8 else c.gp),
    cd := (if c.d2 = false then c.flags &&& 0x8000 != 0 else c.cd),
    ifStop := false, tags := { c.tags with opr := true }, c1 := false, eor := false,
    chreq := (if c.flags &&& 0x80 != 0 then 0x10
      else if c.cd = false ∨ c.d2 then (if c.d2 then 0x08 else 0x28) else c.chreq),
    iostat := (if c.flags &&& 0x80 != 0 then c.iostat ||| 0x08 else c.iostat) }

/-- Position 40, second half of a CCW, lines 5391-5468. -/
def posCcw2 (i : Nat) (x : X) : X :=
  if x.c.chpos = 0x40 ∧ x.g.dtc2 then
    match x.c.chclk with
    | 0 => { x with g := { x.g with dtc2 := false }, c := { x.c with chclk := 1 } }
    | 1 => { x with g := { x.g with dtc2 := false },
                    c := { x.c with chclk := 2,
                                    flags := (x.c.flags &&& 0x08ff) |||
                                      ((x.g.aob >>> 16).setWidth 16 &&& 0xf800),
                                    gp := x.c.gp &&& 0xe0 } }
    | 2 =>
      if x.c.flags &&& 0x7f != 0 then
        if inst i x.g then
          { x with g := { x.g with dtc2 := false, chctl := 0, s := x.g.s ||| 0x60 },
                   c := { x.c with chclk := 0, chpos := 0, eor := false, chreq := 0x40,
                                   iostat := 0x80 } }
        else
          { x with g := { x.g with dtc2 := false },
                   c := { x.c with chclk := 0, chpos := 0, eor := false, chreq := 0x10,
                                   iostat := x.c.iostat ||| 0x08 } }
      else { x with g := { x.g with dtc2 := false }, c := ccw2c x.g x.c }
    | _ => { x with g := { x.g with dtc2 := false } }
  else x

/-- The instruction ends with a condition code: lines 5516-5518 and the like. -/
def release (cc : BitVec 2) (g : Glob) : Glob :=
  { g with cc := cc, chctl := 0, instLatch := false, s := g.s ||| 0x10 }

/-- Select out and hold out fall. -/
def dropSel (t : Tags) : Tags := { t with sel := false, hld := false }

/-- A byte to bus out, with parity. -/
def toBus (b : B) (c : Chan) : Chan := { c with busOut := b, busPar := oddPar b }

/-- Unit selection, clock 2, after the device has answered in one of the usual ways: lines
5527-5549. -/
def sel2c (n : In) (c : Chan) : Chan :=
  (fun c : Chan =>
    if n.t.adrIn && n.t.oprIn then
      { c with busOut := 0, busPar := true,
               flags := (if n.badPar || n.data != (c.cReg >>> 24).setWidth 8 then c.flags ||| 0x02
                         else c.flags),
               c2 := n.data != (c.cReg >>> 24).setWidth 8 }
    else c)
  { c with chclk := 3,
           tags := (if !n.t.adrIn && n.t.oprIn then { c.tags with adr := false, sup := false }
                    else c.tags) }

/-- Unit selection, clock 2, lines 5488-5549. -/
def sel2 (i : Nat) (n : In) (x : X) : X :=
  if n.t.sel && (inst i x.g && x.g.chctl != 0) then
    { x with g := release 3 x.g,
             c := { x.c with tags := { dropSel x.c.tags with adr := false }, busOut := 0,
                             busPar := true, polling := true, chpos := 0, chclk := 0 } }
  else if n.t.adr && n.t.staIn then
    if inst i x.g then
      { x with g := release 2 x.g,
               c := { x.c with tags := { dropSel x.c.tags with adr := false, sup := false },
                               chpos := 0, chclk := 0, polling := true } }
    else
      { x with c := { x.c with tags := { dropSel x.c.tags with adr := false, sup := false },
                               chpos := 0, chclk := 0, chreq := 0x10, ifStop := true,
                               iostat := 0x08 } }
  else { x with c := sel2c n x.c }

/-- Unit selection, clock 3, from the command to the initial status: lines 5592-5610. -/
def sel3c (n : In) (c : Chan) : Chan :=
  { c with
    tags := { c.tags with cmd := n.t.adrIn,
                          sup := c.tags.sup || (n.t.staIn && c.flags &&& 0x4000 != 0) },
    chclk := if n.t.staIn then 4 else c.chclk }

/-- Unit selection, clock 3, lines 5551-5610. -/
def sel3 (i : Nat) (n : In) (x : X) : X :=
  if x.c.c2 then
    if inst i x.g then
      { x with g := release 3 x.g,
               c := { x.c with tags := dropSel x.c.tags, chpos := 0, chclk := 0, polling := true } }
    else
      { x with g := { x.g with bchi := x.g.bchi ||| bit1 i },
               c := { x.c with tags := dropSel x.c.tags, chpos := 0, chclk := 0, iostat := 0x08 } }
  else if inst i x.g && x.g.chctl == 4 then
    { x with c := sel3c n { x.c with busOut := 0, busPar := true } }
  else if inst i x.g && x.g.chctl == 2 then
    if n.t.adrIn then
      { x with c := { x.c with tags := { dropSel x.c.tags with adr := true }, chclk := 6 } }
    else x
  else { x with c := sel3c n (toBus ((x.c.bReg >>> 24).setWidth 8) { x.c with cReg := x.c.bReg }) }

/-- The status byte is kept in the first byte of the C register: lines 5613-5614 and the like. -/
def putStatus (c : W) (b : B) : W := (c &&& 0x00ffffff) ||| (b.setWidth 32 <<< 24)

/-- End of initial selection, the status has been accepted: lines 5635-5725. The registers
of lines 5628-5633 are already cleared. -/
def sel5c (i : Nat) (x : X) : X :=
  if inst i x.g && x.g.chctl == 4 then
    if x.c.cReg &&& 0xff000000 != 0 then
      { x with g := { x.g with chctl := 0, cc := 1 },
               c := { x.c with tags := dropSel x.c.tags, chreq := 0x10, iostat := 0x08 } }
    else
      { x with g := release 0 x.g,
               c := { x.c with tags := dropSel x.c.tags, polling := true } }
  else if x.c.cReg &&& 0xb3000000 != 0 then
    if inst i x.g then
      { x with g := { x.g with cc := 1 },
               c := { x.c with tags := dropSel x.c.tags, chreq := 0x10, c3 := false, ifStop := true,
                               polling := false } }
    else
      { x with g := { x.g with bchi := x.g.bchi ||| bit1 i },
               c := { x.c with tags := dropSel x.c.tags, ifStop := true, polling := false } }
  else if x.c.cReg &&& 0x04000000 != 0 then
    if x.c.flags &&& 0x4000 != 0 then
      { x with g := (if inst i x.g then release 0 x.g else x.g),
               c := { x.c with tags := dropSel x.c.tags,
                               iostat := (if x.c.cReg &&& 0x40000000 != 0 then x.c.iostat ||| 0x40
                                          else x.c.iostat),
                               chreq := 0x08, ifStop := true } }
    else
      { x with c := { x.c with tags := dropSel x.c.tags, flags := x.c.flags ||| 0x2000, c3 := false,
                               chreq := 0x10, c1 := true } }
  else if x.c.cReg &&& 0x08000000 != 0 ∧ x.c.flags &&& 0x4000 = 0 then
    { x with c := { x.c with tags := dropSel x.c.tags, flags := x.c.flags ||| 0x2000, c2 := false,
                             chreq := 0x10, iostat := 0x08 } }
  else
    { x with g := (if inst i x.g then release 0 x.g else x.g),
             c := { x.c with tags := { x.c.tags with sup := false }, polling := false } }

/-- Position 20, unit selection, lines 5469-5741. -/
def posSel (i : Nat) (n : In) (x : X) : X :=
  if x.c.chpos = 0x20 then
    match x.c.chclk with
    | 0 => { x with c := toBus ((x.c.cReg >>> 24).setWidth 8)
                           { x.c with tags := { dropSel x.c.tags with adr := true },
                                      chclk := 1, polling := false } }
    | 1 => { x with c := { x.c with tags := { x.c.tags with sel := true, hld := true },
                                    chclk := 2 } }
    | 2 => sel2 i n x
    | 3 => sel3 i n x
    | 4 => { x with c := { x.c with cReg := putStatus x.c.cReg n.data, chclk := 5,
                                    tags := { x.c.tags with srv := true },
                                    flags := if n.badPar then x.c.flags ||| 0x02 else x.c.flags } }
    | 5 => if n.t.staIn then x
           else sel5c i { x with c := { x.c with
             tags := { x.c.tags with srv := false }, cFull := false, bFull := false, lsFull := false,
             chpos := 0, chclk := 0 } }
    | 6 => if n.t.oprIn then { x with c := { x.c with tags := dropSel x.c.tags } }
           else { x with g := { x.g with instLatch := false, cc := 1, s := x.g.s ||| 0x10 },
                         c := { x.c with chpos := 0, chclk := 0, polling := true,
                                         tags := { x.c.tags with adr := false } } }
    | _ => x
  else x

/-- Position 10, store of a word read: lines 5742-5762. -/
def posRst (x : X) : X :=
  if x.c.chpos = 0x10 ∧ x.g.last then
    { x with c := { x.c with chclk := 0, chpos := 0, lsFull := false,
                             iostat := (x.c.iostat &&& 0xef) |||
                               (if x.c.flags &&& 0x1000 != 0 then 0x20 else 0),
                             chreq := (if x.c.c1 then 0x08 else x.c.chreq), c1 := false } }
  else x

/-- Position 08, fetch of a word to write: lines 5763-5791. The signal is not consumed. -/
def posWf (i : Nat) (x : X) : X :=
  if x.c.chpos = 0x08 then
    (fun y : X => if y.g.last then
      { y with c := { y.c with chclk := 0, chpos := 0, iostat := y.c.iostat &&& 0xef } } else y)
    (if x.g.dtc2 then
      match x.c.chclk with
      | 0 => { x with c := { x.c with chclk := 1, eor := false } }
      | 1 => { x with c := { x.c with chclk := 2 } }
      | 2 => if x.c.bFull = false then
               (if x.g.ch = i then { x with c := { x.c with bReg := x.g.aob, bFull := true } }
                else { x with spill := some x.g.aob })
             else { x with c := { x.c with lsFull := true } }
      | _ => x
     else x)
  else x

/-- Second signal of the end routine, lines 5807-5845. -/
def endb (i : Nat) (n : In) (x : X) : X :=
  (fun y : X =>
    if y.c.chreq = 0 ∧ y.c.flags &&& 0xff ≠ 0 then
      { y with g := { y.g with bchi := y.g.bchi ||| bit1 i } }
    else if y.c.flags &&& 0x4000 = 0 then
      if inst i y.g then { y with c := { y.c with tags := dropSel y.c.tags, chreq := 0x40 } }
      else { y with c := { y.c with tags := dropSel y.c.tags },
                    g := { y.g with bchi := y.g.bchi ||| bit1 i } }
    else if n.t.staIn then
      { y with c := { y.c with
                tags := dropSel y.c.tags,
                iostat := (if y.c.cReg &&& 0x04000000 != 0 ∧ y.c.cReg &&& 0x40000000 != 0
                           then y.c.iostat ||| 0x40 else y.c.iostat),
                chreq := (if inst i y.g then 0x40
                          else if y.c.cReg &&& 0x04000000 != 0 then 0x08 else y.c.chreq) } }
    else y)
  { x with c := { x.c with
      chclk := 0, iostat := 0,
      tags := (if n.t.staIn then
                 { x.c.tags with srv := true, sup := x.c.tags.sup || x.c.flags &&& 0x4000 != 0 }
               else x.c.tags) } }

/-- The last cycle of the end routine, lines 5848-5858. -/
def endLast (y : X) : X :=
  if y.g.last then
    { y with c := { y.c with
        flags := (if y.c.c3 = false ∧ y.c.flags &&& 0x2000 = 0 ∧ y.g.aob &&& 0xffff ≠ 0
                  then y.c.flags ||| 0x40 else y.c.flags),
        c1 := false, c2 := false, chpos := 0 } }
  else y

/-- Position 04, the end routine, lines 5792-5859. -/
def posEnd (i : Nat) (n : In) (x : X) : X :=
  if x.c.chpos = 0x04 then
    endLast
    (if x.g.dtc1 then
      match x.c.chclk with
      | 0 => { x with g := { x.g with dtc1 := false }, c := { x.c with chclk := 1 } }
      | 1 => endb i n { x with g := { x.g with dtc1 := false } }
      | _ => { x with g := { x.g with dtc1 := false } }
     else x)
  else x

/-- Position 02, comparison of a unit address, lines 5860-5878. -/
def posCmp (x : X) : X :=
  if x.c.chpos = 0x02 then
    (fun y : X => if y.g.last then
      { y with c := { y.c with chpos := 0, tags := { y.c.tags with cmd := true } } } else y)
    { x with g := (if x.g.first then
                     { x.g with l := (x.g.l &&& 0x00ffffff) ||| (x.c.cReg &&& 0xff000000) }
                   else x.g),
             c := (if x.g.dtc2 then { x.c with c1 := x.g.aob &&& 0x00800000 != 0 } else x.c) }
  else x

/-- Position 01, interruption routine, lines 5879-5918. -/
def posIrq (i : Nat) (n : In) (x : X) : X :=
  if x.c.chpos = 0x01 then
    (fun y : X => if y.g.last then
      { y with
        g := (fun g : Glob => { g with bchi := g.bchi &&& ~~~(bit1 i) })
          (if inst i y.g then release 1 y.g else y.g),
        c := { y.c with c3 := false, flags := y.c.flags &&& 0xf700, chpos := 0,
                        polling := y.c.polling || !n.t.oprIn,
                        tags := (if n.t.oprIn then y.c.tags
                                 else { y.c.tags with sup := false }) } } else y)
    (if x.g.dtc1 then
      { x with g := { x.g with dtc1 := false },
               c := { x.c with chclk := (match x.c.chclk with
                 | 0 => 1 | 1 => 2 | 2 => 0 | k => k) } }
     else x)
  else x

/-- The routines of a channel, lines 5280-5918. Each `if` looks at `CHPOS` anew. -/
def positions (i : Nat) (n : In) (x : X) : X :=
  posIrq i n (posCmp (posEnd i n (posWf i (posRst (posSel i n (posCcw2 i (posCcw1 i (posUa (posLs
    x)))))))))

/-- A channel at rest, lines 5919-5957. -/
def poll (i : Nat) (n : In) (x : X) : X :=
  (fun y : X => if n.t.hld && !n.t.oprIn then
    { y with c := { y.c with tags := dropSel y.c.tags, c1 := false } } else y)
  ((fun y : X => if n.t.staIn && n.t.oprIn then
    { y with g := { y.g with bchi := y.g.bchi ||| bit1 i },
             c := { y.c with tags := { y.c.tags with srv := true, cmd := false },
                             bReg := y.c.cReg, cReg := putStatus y.c.cReg n.data, iostat := 0x80,
                             polling := false, c1 := false, c2 := false, c3 := false } } else y)
  ((fun y : X => if n.t.adrIn && n.t.oprIn then
    { y with c := { y.c with cReg := putStatus y.c.cReg n.data,
                             tags := { y.c.tags with cmd := true } } } else y)
  { x with c := { x.c with tags :=
    { x.c.tags with
      sup := x.c.tags.sup || x.g.bchi &&& bit1 i != 0,
      srv := x.c.tags.srv && !(n.t.srv && !n.t.srvIn && !n.t.staIn),
      adr := x.c.tags.adr && !(n.t.adr && !n.t.oprIn),
      sel := x.c.tags.sel || n.t.reqIn,
      hld := x.c.tags.hld || n.t.reqIn } } }))

/-- Input: the C register goes to B when B is empty, lines 5959-5968. -/
def cToB (n : In) (c : Chan) : Chan :=
  if n.t.oprIn && c.cFull && !c.bFull && c.op &&& 6 != 0 then
    { c with bReg := c.cReg, cbi := c.cci, bFull := true, cFull := false, cci := 0 }
  else c

/-- Output: the B register goes to C when C is empty, lines 5970-5979. -/
def bToC (n : In) (c : Chan) : Chan :=
  if n.t.oprIn && !c.cFull && c.bFull && c.op &&& 7 == 1 then
    { c with cReg := c.bReg, cci := c.cbi, bFull := false, cFull := true, cbi := 0 }
  else c

/-- Transfers between B and local storage are asked for, lines 5980-5998. -/
def lsAsk (i : Nat) (x : X) : X :=
  if x.g.breakOut = false ∧ x.c.chreq = 0 ∧ x.c.chpos = 0 then
    (fun y : X => if y.c.op = 1 ∧ y.c.lsFull ∧ y.c.bFull = false then
      { y with c := { y.c with routine := 0x44, chpos := 0x400 },
               g := { y.g with breakIn := y.g.breakIn ||| mask i } } else y)
    (if x.c.op &&& 6 ≠ 0 ∧ x.c.bFull ∧ x.c.lsFull = false then
      { x with c := { x.c with routine := 0x40, chpos := 0x200, cli := x.c.cbi },
               g := { x.g with breakIn := x.g.breakIn ||| mask i } }
     else x)
  else x

/-- The device has left, lines 6000-6007. -/
def gone (n : In) (c : Chan) : Chan :=
  if n.t.oprIn then c
  else { c with tags := { dropSel c.tags with adr := false },
                cFull := c.cFull || c.cci != 0, polling := true }

/-- Store and fetch are asked for, lines 6009-6022. -/
def ask (n : In) (c : Chan) : Chan :=
  (fun c : Chan => if c.lsFull = false ∧ c.chreq = 0 ∧ c.chpos = 0 ∧ n.t.oprIn ∧ c.op = 1 ∧
      c.eor = false then { c with chreq := 0x80 } else c)
  (if c.lsFull ∧ c.chreq = 0 ∧ c.chpos = 0 ∧ n.t.oprIn ∧ c.op &&& 6 ≠ 0 then
    { c with chreq := 0x80 } else c)

/-- `IOSTAT` for the end routine, lines 6040-6059. -/
def endIos (n : In) (c : Chan) : B :=
  (if c.op = 6 then (if c.gp >>> 3 &&& 3 = 3 then 0 else 0x10)
   else (if c.gp >>> 3 &&& 3 = 0 then 0 else 0x10)) |||
  (if n.data &&& 0xb3 != 0 || c.flags &&& 0x4000 != 0 then 0x08 else 0)

/-- The device presents its status, lines 6024-6066. -/
def ending (n : In) (c : Chan) : Chan :=
  if n.t.oprIn && n.t.staIn then
    (fun c : Chan => if !c.bFull && !c.cFull && !c.lsFull then
      { c with cReg := putStatus c.cReg n.data, chreq := 0x10, c3 := false, iostat := endIos n c }
     else c)
    (if c.op = 1 then { c with cFull := false, bFull := false, lsFull := false }
     else { c with cFull := c.cFull || c.cci != 0 })
  else c

/-- Automatic functions, lines 5958-6067. -/
def auto (i : Nat) (n : In) (x : X) : X :=
  (fun y : X => { y with c := ending n (ask n (gone n y.c)) })
  (lsAsk i { x with c := bToC n (cToB n x.c) })

/-- Service out falls when service in and status in have fallen, lines 6069-6074. -/
def dropSrv (i : Nat) (n : In) (x : X) : X :=
  if n.t.srv && !n.t.srvIn && !n.t.staIn then
    { x with c := { x.c with tags := { x.c.tags with srv := false,
                                                     sup := x.c.tags.sup || x.g.bchi &&& bit1 i != 0 } } }
  else x

/-- Command out to stop the device falls, lines 6076-6078. -/
def dropCmd (n : In) (c : Chan) : Chan :=
  if c.ifStop && n.t.cmd && !n.t.srvIn then { c with tags := { c.tags with cmd := false } } else c

/-- Number of the byte in the word, 3 is the leftmost: lines 6092, 6137, 6182. -/
def byteNo (gp : B) : Nat := 3 - (gp >>> 5 &&& 3).toNat

/-- A byte of a word. -/
def putB (w : W) (k : Nat) (b : B) : W :=
  (w &&& ~~~(0xff#32 <<< (8 * k))) ||| (b.setWidth 32 <<< (8 * k))
def getB (w : W) (k : Nat) : B := (w >>> (8 * k)).setWidth 8

/-- The next or the previous byte position, lines 6099-6100, 6144-6145, 6189-6190. -/
def gpNext (gp : B) : B := (gp + 0x20) &&& 0x7f
def gpPrev (gp : B) : B := (gp - 0x20) &&& 0x7f

/-- Is the end position reached: `(((GP >> 2) ^ GP) & 0x18) == 0`, lines 6109, 6154, 6194. -/
def atLast (gp : B) : Bool := (gp >>> 2 ^^^ gp) &&& 0x18 == 0

/-- The last byte of a word has been read: lines 6114-6131, 6159-6176. -/
def readFull (c : Chan) : Chan :=
  if c.cFull then
    if c.gp &&& 4 ≠ 0 then
      (if c.cd then { c with c1 := true } else { c with ifStop := true })
    else if c.gp &&& 2 ≠ 0 then { c with gp := c.gp ||| 4 }
    else if c.gp &&& 1 ≠ 0 then { c with gp := c.gp ||| 2 }
    else c
  else c

/-- A byte is read, lines 6090-6133 and 6135-6178; a word begins at position `wrap`. -/
def readByte (next : B → B) (wrap : B) (n : In) (c : Chan) : Chan :=
  if c.cFull then c else
  readFull
    { c with cReg := putB c.cReg (byteNo c.gp) n.data, cci := c.cci ||| (1#4 <<< byteNo c.gp),
             gp := next c.gp, tags := { c.tags with srv := true },
             cFull := if next c.gp &&& 4 = 0 then next c.gp &&& 0x60 == wrap
                      else atLast (next c.gp) }

/-- A byte is written, lines 6180-6214. -/
def writeByte (c : Chan) : Chan :=
  if c.cFull = false then c else
  (fun c : Chan =>
    if c.eor && !c.bFull && !c.lsFull then
      if atLast c.gp then
        (if c.cd then { c with cFull := false, chreq := 0x08, c1 := true }
         else { c with cFull := false, ifStop := true })
      else c
    else if c.gp &&& 0x60 = 0 then { c with cFull := false } else c)
  (toBus (getB c.cReg (byteNo c.gp))
    { c with cci := c.cci ||| (1#4 <<< byteNo c.gp), gp := gpNext c.gp,
             tags := { c.tags with srv := true } })

/-- Program controlled interruption, lines 6217-6226. -/
def pci (c : Chan) : Chan :=
  if c.flags &&& 0x0800 ≠ 0 then
    { c with flags := (c.flags ||| 0x80) &&& 0xf7ff, c3 := true,
             chreq := if c.chreq = 0 ∧ c.c1 = false then 0x10 else c.chreq }
  else c

/-- The device asks for a byte, lines 6080-6228. -/
def serve (n : In) (c : Chan) : Chan :=
  if n.t.srvIn && n.t.oprIn && !n.t.srv then
    if c.ifStop then
      { c with tags := { c.tags with cmd := true },
               flags := if c.flags &&& 0x2000 = 0 then c.flags ||| 0x40 else c.flags }
    else if c.c1 = false then
      pci (match c.op with
        | 4 => readByte gpNext 0 n c
        | 6 => readByte gpPrev 0x60 n c
        | 1 => writeByte c
        | _ => c)
    else c
  else c

/-- One machine cycle of a channel, lines 5272-6229. -/
def work (i : Nat) (n : In) (x : X) : X :=
  (fun y : X => { y with c := serve n (dropCmd n y.c) })
  (dropSrv i n
    (if x.c.chpos ≠ 0 then positions i n x
     else if x.c.polling then poll i n x
     else auto i n x))

/-- The three channels (`c 3` only holds the B register written with `CH` 3). -/
structure Sys where
  c : Nat → Chan
  g : Glob

/-- Put back channel `i` after its part of the cycle. -/
def Sys.put (s : Sys) (i : Nat) (x : X) : Sys :=
  { g := x.g,
    c := fun k =>
      if k = i then x.c
      else match x.spill with
        | some w => if k = s.g.ch then { s.c k with bReg := w, bFull := true } else s.c k
        | none => s.c k }

def Sys.accept (s : Sys) (i : Nat) : Sys := s.put i (Sel50.accept i { c := s.c i, g := s.g })
def Sys.work (s : Sys) (n : Nat → In) (i : Nat) : Sys :=
  s.put i (Sel50.work i (n i) { c := s.c i, g := s.g })

/-- Lines 5182-6229: first the requests of all three, then the work of all three. -/
def Sys.cycle (n : Nat → In) (s : Sys) : Sys :=
  ((((((s.accept 0).accept 1).accept 2).work n 0).work n 1).work n 2)

/-! ### What the microprogram does with the registers of the channel -/

/-- `CH>` at positions 200 and 400, lines 2803-2813: B goes to the adder latch, to be put in local
storage, or takes what comes from there. -/
def gate (aob : W) (c : Chan) : Chan :=
  if c.chpos = 0x200 then
    { c with lsFull := true, bFull := false, iostat := c.iostat ||| 0x10 }
  else if c.chpos = 0x400 then
    { c with bReg := aob, lsFull := false, bFull := true, iostat := c.iostat ||| 0x10 }
  else c

/-- `LSWDTEST`, lines 3177-3214, with the remaining count on the adder latch: end position and the
number of words left. -/
def lastBack (k : Nat) : B := if k < 4 then 4 else if k < 8 then 2 else if k < 12 then 1 else 0
def lastForw (k : Nat) : B := if k < 5 then 4 else if k < 9 then 2 else if k < 13 then 1 else 0
def lastWord (aob : W) (c : Chan) : Chan :=
  if c.op = 1 ∧ (aob &&& 0x10000 ≠ 0 ∨ aob &&& 0xffff = 0) then
    { c with gp := c.gp ||| ((aob &&& 3).setWidth 8 <<< 3), eor := true }
  else if aob &&& 0xfff0 ≠ 0 then c
  else
    { c with gp := (c.gp &&& 0xe7) |||
        (match c.op with
         | 1 => (aob &&& 3).setWidth 8 <<< 3
         | 6 => ((aob &&& 3).setWidth 8 <<< 3) ||| lastBack (aob &&& 0xf).toNat
         | 4 => ((aob &&& 3).setWidth 8 <<< 3) ||| lastForw (aob &&& 0xf).toNat
         | _ => 0) }

/-- A store against the storage key, lines 3000-3001, 3075-3076. -/
def stop (c : Chan) : Chan := { c with ifStop := true, flags := c.flags ||| 0x10 }

end Verif.Sel50
