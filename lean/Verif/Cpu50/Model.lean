/-!
# Model 2050 processor: one machine cycle

Models `cycle_2050` of `/repo/src/model2050/cpu2050.c` (lines 596-4172), in CPU mode
(`io_mode == 0`), with the operator panel at rest (no key pressed, rate switch at
`PROCESS`, no address compare).  One call of `cycle` is one call of `cycle_2050` up to the
label `channel:`; the channel section (lines 4174-6290) is not modelled.  A microinstruction
which starts an operation on a channel, or leaves CPU mode, gives the outcome `chan`.

Registers have the width to which every assignment in the code masks them
(`/repo/src/model2050/model2050.h` lines 92-250); those the code does not mask have the
width of their C type.
-/

namespace Verif.Cpu50

/-- 32 bit registers. -/
abbrev W := BitVec 32
/-- 8 bit registers. -/
abbrev B := BitVec 8

/-- Fields of one word of control storage, `struct ROS_2050` in
`/repo/src/model2050/model2050.h` lines 33-69, the ones the CPU mode uses. -/
structure Word where
  lu : Nat
  mv : Nat
  zp : Nat
  zf : Nat
  zn : Nat
  tr : Nat
  ws : Nat
  sf : Nat
  iv : Nat
  al : Nat
  wm : Nat
  up : Nat
  md : Nat
  lb : Nat
  mb : Nat
  dg : Nat
  ul : Nat
  ur : Nat
  ce : Nat
  lx : Nat
  tc : Nat
  ry : Nat
  ad : Nat
  ab : Nat
  bb : Nat
  ss : Nat
deriving DecidableEq, Repr

/-- The storage cycle, `mem_state`: `R1`, `R2`, `R3`, `W1` of `model2050.h` lines 71-74 and
the value 0 it has before the first reference. -/
inductive MS where
  | r1 | r2 | r3 | w1 | zero
deriving DecidableEq, Repr

/-- The eight bits of `S_REG` (`BIT0` is the leftmost). -/
structure Stats where
  s0 : Bool := false
  s1 : Bool := false
  s2 : Bool := false
  s3 : Bool := false
  s4 : Bool := false
  s5 : Bool := false
  s6 : Bool := false
  s7 : Bool := false
deriving DecidableEq, Repr

/-- State of the processor: `struct CPU_2050` (`model2050.h` lines 97-250) and the static
variables of `cpu2050.c` lines 72-79.  Flags which only ever hold 0 and 1 are `Bool`.
`FN` is stored shifted right by four. -/
structure S where
  R : W := 0
  L : W := 0
  H : W := 0
  M : W := 0
  IA : W := 0
  SAR : W := 0
  SDR : W := 0
  SA : W := 0
  alu : W := 0
  aob : W := 0
  u : B := 0
  w : B := 0
  F : B := 0
  G : B := 0
  MASK : B := 0
  BCHI : B := 0
  MD : BitVec 4 := 0
  J : BitVec 4 := 0
  ED : BitVec 4 := 0
  BS : BitVec 4 := 0
  KEY : BitVec 4 := 0
  AMWP : BitVec 4 := 0
  PMASK : BitVec 4 := 0
  MB : BitVec 2 := 0
  LB : BitVec 2 := 0
  EDST : BitVec 2 := 0
  CC : BitVec 2 := 0
  ILC : BitVec 2 := 0
  FN : BitVec 2 := 0
  mvf : BitVec 3 := 0
  LSA : BitVec 6 := 0
  St : Stats := {}
  Q : Bool := false
  LSGNS : Bool := false
  RSGNS : Bool := false
  SYLS1 : Bool := false
  REFETCH : Bool := false
  IVA : Bool := false
  AUX : Bool := false
  CAR : Bool := false
  G1NEG : Bool := false
  G2NEG : Bool := false
  initMem : Bool := false
  initBump : Bool := false
  bump : Bool := false
  updD : Bool := false
  ms : MS := .zero
  ROAR : Nat := 0
  LS : BitVec 6 → W := fun _ => 0
  mem : Nat → W := fun _ => 0
  bumpM : Nat → W := fun _ => 0
  MP : Nat → B := fun _ => 0
  wait : Bool := false
  man : Bool := false
  stop : Bool := false
  timUp : Bool := false
  timIrq : Bool := false
  intr : Bool := false
  load : Bool := false

/-- What the cycle reads and does not change: control storage, `mem_max`, the panel's data,
address and load unit switches, the channel's status bits. -/
structure Env where
  ros : Nat → Word
  memMax : W
  dkeys : W := 0
  akeys : W := 0
  ipl : W := 0
  ios : B := 0
  busIn : B := 0
  ibfull : Bool := false

/-- Outcome of a cycle: `oob` is an access outside an array, `chan` a microinstruction which
needs the channel or leaves CPU mode. -/
inductive Out (α : Type) where
  | ok (a : α)
  | oob
  | chan

namespace Out
/-- Sequencing. -/
def bind {α β : Type} : Out α → (α → Out β) → Out β
  | .ok a, f => f a
  | .oob, _ => .oob
  | .chan, _ => .chan
end Out

/-- Local storage address `0x10 | e`, `0x30 | r`. -/
def lsAddr (hi : Nat) (lo : BitVec 4) : BitVec 6 := BitVec.ofNat 2 hi ++ lo

/-- Byte `b` (0 is the leftmost) of a word: `(x >> ((3 - b) * 8)) & 0xff`. -/
def byteOf (x : W) (b : BitVec 2) : B := (x >>> ((3 - b.toNat) * 8)).setWidth 8

/-- Replace byte `b` of a word (`cpu2050.c` lines 3807-3809). -/
def putByte (x : W) (b : BitVec 2) (v : B) : W :=
  (x &&& ~~~(0xff#32 <<< (8 * (3 - b.toNat)))) ||| (v.setWidth 32 <<< (8 * (3 - b.toNat)))

/-- `BS_MASK`, `cpu2050.c` lines 36-53. -/
def bsMask (b : BitVec 4) : W :=
  match b.toNat with
  | 0 => 0x00000000
  | 1 => 0x000000FF
  | 2 => 0x0000FF00
  | 3 => 0x0000FFFF
  | 4 => 0x00FF0000
  | 5 => 0x00FF00FF
  | 6 => 0x00FFFF00
  | 7 => 0x00FFFFFF
  | 8 => 0xFF000000
  | 9 => 0xFF0000FF
  | 10 => 0xFF00FF00
  | 11 => 0xFF00FFFF
  | 12 => 0xFFFF0000
  | 13 => 0xFFFF00FF
  | 14 => 0xFFFFFF00
  | _ => 0xFFFFFFFF

/-- Digit `i` (0 is the rightmost) of a word. -/
def nib (x : W) (i : Nat) : Nat := x.toNat / 16 ^ i % 16

/-- Is any of these interruptions or the manual state pending: `exc`, lines 635-643. -/
def exc (s : S) : Bool :=
  s.man || s.wait ||
    (!s.stop && (s.timUp || ((s.intr || s.timIrq) && (s.MASK &&& 1 != 0)) ||
      (s.BCHI &&& s.MASK != 0)))

/-- `tr_interloc & (1 << tr)` (lines 81, 783): destinations which use the storage data
register or start a storage reference. -/
def interlocked (tr : Nat) : Bool := (0x3043bf50).testBit tr

/-- `sal->al == 30 || sal->ss == 3 || sal->iv == 4 || sal->iv == 7`. -/
def usesStore (w : Word) : Bool := w.al == 30 || w.ss == 3 || w.iv == 4 || w.iv == 7

/-- Index in `BUMP`, lines 797, 825, 846. -/
def bumpIx (sa : W) : Nat := ((((sa >>> 6) &&& 0xf00) ||| (sa &&& 0xfc)) >>> 2).toNat

/-- Index in main storage. -/
def memIx (sa : W) : Nat := (sa >>> 2).toNat

/-- Number of words allocated for main storage (lines 6325-6329). -/
def words (e : Env) : Nat := (e.memMax.toNat + 1) / 4

/-- Read main storage. -/
def memRead (e : Env) (s : S) : Out W :=
  if memIx s.SA < words e then .ok (s.mem (memIx s.SA)) else .oob

/-- Write main storage. -/
def memWrite (e : Env) (s : S) : Out S :=
  if memIx s.SA < words e then
    .ok { s with mem := fun i => if i = memIx s.SA then s.SDR else s.mem i } else .oob

/-- Write `BUMP` or main storage. -/
def store (e : Env) (s : S) : Out S :=
  if s.bump then
    .ok { s with bumpM := fun i => if i = bumpIx s.SA then s.SDR else s.bumpM i }
  else memWrite e s

/-- Fetch from `BUMP` or main storage into the storage data register. -/
def fetch (e : Env) (s : S) : Out S :=
  if s.bump then .ok { s with SDR := s.bumpM (bumpIx s.SA) }
  else (memRead e s).bind (fun v => .ok { s with SDR := v })

/-- Result of the storage part of a cycle: go on with the microinstruction, or wait
(`goto channel`). -/
abbrev Held := Bool × S

/-- Lines 838-858: end of the storage cycle, the changed word is written back. -/
def writeBack (e : Env) (s : S) : Out S :=
  if s.updD then
    if s.bump then
      .ok { s with updD := false,
                   bumpM := fun i => if i = bumpIx s.SA then s.SDR else s.bumpM i }
    else if memIx s.SA < words e then
      .ok { s with updD := false,
                   mem := (fun i => if i = memIx s.SA then s.SDR else s.mem i),
                   REFETCH := s.REFETCH || decide (s.SA >>> 2 = s.IA >>> 2) }
    else .oob
  else .ok s

/-- Lines 861-885: accept the next storage reference. -/
def accept (e : Env) (w : Word) (s : S) : Held :=
  if s.initMem || s.initBump then
    if !s.initBump && decide (e.memMax < s.SAR) then
      (true, { s with SA := s.SAR &&& 0x3ffff, bump := s.initBump, initMem := false,
                      initBump := false, IVA := true, ROAR := 0x1c0 })
    else
      (usesStore w || w.tr == 29,
        { s with SA := s.SAR &&& 0x3ffff, bump := s.initBump, initMem := false,
                 initBump := false, IVA := false, ms := .r1 })
  else (false, { s with SA := s.SAR &&& 0x3ffff })

/-- Lines 773-888: the storage cycle. The `Bool` says that the microinstruction waits. -/
def memCycle (e : Env) (w : Word) (s : S) : Out Held :=
  match s.ms with
  | .r1 =>
    .ok (interlocked w.tr || usesStore w || s.initMem || s.initBump || s.updD,
         { s with ms := .r2 })
  | .r2 =>
    (if !s.updD || w.tr == 29 then fetch e { s with ms := .r3 }
     else .ok { s with ms := .r3 }).bind fun s1 =>
      .ok (interlocked w.tr || usesStore w || s.initMem || s.initBump || s.updD, s1)
  | .r3 =>
    if s.initMem || s.initBump then .ok (true, { s with ms := .w1 })
    else if s.updD || w.tr == 29 then
      (store e { s with ms := .w1 }).bind fun s1 => .ok (false, s1)
    else .ok (false, { s with ms := .w1 })
  | .w1 => (writeBack e s).bind fun s1 => .ok (accept e w s1)
  | .zero =>
    (memRead e s).bind fun v =>
      (writeBack e { s with SDR := v, ms := .w1 }).bind fun s1 => .ok (accept e w s1)

/-- What a cycle works on besides the registers: next address, the branch bits, the new
values of `L` and `S` (lines 1637-1640), adder inputs, mover input, carries. -/
structure X where
  s : S
  nro : Nat := 0
  a : Bool := false
  b : Bool := false
  lu : W := 0
  su : Stats := {}
  left : W := 0
  right : W := 0
  v : B := 0
  cin : Bool := false
  carries : W := 0
  cout : Bool := false
  mdOld : BitVec 4 := 0

/-- Branch condition A, lines 1091-1356: `ab`, the two bits it gives. Tests of channel
conditions read the environment; undefined ones give 0. -/
def condA (e : Env) (w : Word) (ex : Bool) (s : S) : Bool × Bool :=
  match w.ab with
  | 1 => (true, false)
  | 2 => (s.St.s0, false)
  | 3 => (s.St.s1, false)
  | 4 => (s.St.s2, false)
  | 5 => (s.St.s3, false)
  | 6 => (s.St.s4, false)
  | 7 => (s.St.s5, false)
  | 8 => (s.St.s6, false)
  | 9 => (s.St.s7, false)
  | 10 => (s.CAR, false)
  | 12 => (s.SYLS1, false)
  | 13 => (s.LSGNS, false)
  | 14 => (s.LSGNS != s.RSGNS, false)
  | 16 => (s.MD &&& (8#4 >>> s.CC.toNat) != 0, false)
  | 17 => (s.w == 0, false)
  | 18 => (s.w &&& 0xf0 == 0, false)
  | 19 => (s.w &&& 0x0f == 0, false)
  | 20 => (s.MD &&& 9 == 0, false)
  | 21 => (s.MB == 3, false)
  | 22 => (s.MD &&& 1 == 0, false)
  | 23 => (s.G &&& 0xf0 == 0, false)
  | 24 => (s.G1NEG, false)
  | 25 => (decide (s.G < 4) || s.G1NEG, false)
  | 26 => (s.G &&& 0xf0 == 0 || s.MB == 0, false)
  | 27 => (e.ios &&& 0x80 != 0, false)
  | 28 => (e.ios &&& 0x20 != 0, false)
  | 29 => (s.R &&& 1 != 0, false)
  | 30 => (s.F &&& 2 != 0, false)
  | 31 => (s.L.msb, false)
  | 32 => (s.F == 0, false)
  | 33 => (s.aob &&& 0x00f00000 == 0 && !s.St.s0, false)
  | 34 => (s.aob &&& bsMask s.BS == 0, false)
  | 35 => (s.EDST &&& 2 != 0, s.EDST &&& 1 != 0)
  | 36 => (s.AMWP &&& 1 != 0, false)
  | 37 => (s.timUp, false)
  | 39 => (s.G == 0 || s.MB == 3, false)
  | 43 => (decide ((s.G &&& 0xf).toNat ≤ s.LB.toNat), false)
  | 45 => (s.SDR &&& 0x1000000 != 0, false)
  | 49 => (s.w &&& 2 != 0, s.w &&& 1 != 0)
  | 50 => (s.alu &&& 0xffff != 0, false)
  | 51 => (s.alu &&& 0xffff == 0 || s.alu &&& 0x07000000 != 0, false)
  | 52 => (e.busIn &&& 0x80 != 0, false)
  | 53 => (e.ibfull, false)
  | 54 => (s.alu &&& 7 != 0 || s.IVA, false)
  | 56 => (ex || s.IA &&& 2 == 0, ex || (s.IA &&& 2 != 0 && s.REFETCH))
  | 57 => (s.IA &&& 2 != 0, false)
  | 58 => (s.timUp || (s.MASK &&& 1 != 0 && (s.intr || s.timIrq)),
           s.timUp || s.BCHI &&& s.MASK != 0)
  | 61 => (e.ios &&& 0x08 != 0, false)
  | 63 => (s.St.s0 && s.M &&& 0xc0000000 == 0x40000000, false)
  | _ => (false, false)

/-- Branch condition B, lines 1359-1492: `bb`, given the bit the A condition set. -/
def condB (e : Env) (w : Word) (ex : Bool) (s : S) (b : Bool) : Bool :=
  match w.bb with
  | 1 => true
  | 2 => b || s.St.s0
  | 3 => b || s.St.s1
  | 4 => b || s.St.s2
  | 5 => b || s.St.s3
  | 6 => b || s.St.s4
  | 7 => b || s.St.s5
  | 8 => b || s.St.s6
  | 9 => b || s.St.s7
  | 10 => b || s.RSGNS
  | 12 => b || ex
  | 13 => b || s.w &&& 0xf == 0
  | 15 => b || s.aob &&& 0x00ffffff == 0
  | 16 => b || s.aob.msb
  | 17 => b || s.aob == 0
  | 18 => b || s.aob &&& bsMask s.BS == 0
  | 19 => s.w == 1
  | 20 => b || s.LB == 0
  | 21 => b || s.LB == 3
  | 22 => b || s.MD == 0
  | 23 => b || s.G &&& 0xf == 0
  | 24 => b || s.G2NEG
  | 25 => b || s.G &&& 0xf == 0 || s.LB == 0
  | 26 => b || e.ios &&& 0x40 != 0
  | 27 => b || s.MD &&& 9 != 0 || s.J &&& 9 != 0
  | 28 => s.IVA
  | 29 => b || e.ios &&& 0x10 != 0
  | _ => b

/-- How `zn` combines the two bits, lines 1553-1592 and 2541-2572. -/
def combine (zn : Nat) (a b : Bool) : Bool × Bool :=
  match zn with
  | 2 => (a || !b, b)
  | 3 => (a || b, b)
  | 6 => (a, b || !a)
  | 7 => (a, b || a)
  | _ => (a, b)

/-- The two low bits of the next address. -/
def abBits (p : Bool × Bool) : Nat := 2 * p.1.toNat + p.2.toNat

/-- Base of the next address, lines 1089 and 1495-1592. -/
def nextBase (w : Word) (s : S) : Nat :=
  match w.zn with
  | 0 =>
    match w.zf with
    | 6 => w.zp ||| (nib s.M 7 <<< 2)
    | 8 => w.zp ||| (nib s.M 6 <<< 2)
    | 10 => w.zp ||| ((s.F.toNat % 16) <<< 2)
    | 12 => w.zp ||| (s.ED.toNat <<< 2)
    | _ => w.zp
  | _ => w.zp ||| (w.zf <<< 2)

/-- Left adder input, lines 1643-1679, 1724-1730. -/
def leftBus (w : Word) (s : S) : W :=
  match w.lx with
  | 1 => s.L
  | 2 => 0x80000000
  | 3 => BitVec.ofNat 32 (w.ce <<< 1)
  | 4 => s.L <<< 16
  | 5 => s.L ||| 3
  | 6 => 4
  | 7 => 0xc0000000
  | _ => 0

/-- Left adder input after the byte mask of `SETCRLOG` and complementing, lines 1724-1730. -/
def leftIn (w : Word) (s : S) : W :=
  if w.ss = 42 then
    (if w.tc = 0 then ~~~(leftBus w s &&& bsMask s.BS) else leftBus w s &&& bsMask s.BS)
  else (if w.tc = 0 then ~~~(leftBus w s) else leftBus w s)

/-- Right adder input, lines 1681-1722. -/
def rightBus (w : Word) (s : S) : W :=
  match w.ry with
  | 1 => s.R
  | 2 => s.M
  | 3 => s.M &&& 0xffff
  | 4 => s.H
  | _ => 0

/-- Right adder input with `LWA`, lines 1720-1722. -/
def rightIn (w : Word) (s : S) : W := if w.lx = 5 then rightBus w s ||| 3 else rightBus w s

/-- Mover input U, lines 1949-1990. -/
def uBus (w : Word) (s : S) : B :=
  match w.lu with
  | 1 => (s.MD.setWidth 8 <<< 4) ||| s.F
  | 2 => s.R.setWidth 8
  | 4 => if s.timIrq then 0x80 else if s.intr then 0x40 else s.u
  | 5 => (s.ILC.setWidth 8 <<< 6) ||| (s.CC.setWidth 8 <<< 4) ||| s.PMASK.setWidth 8
  | 6 => byteOf s.L s.MB
  | 7 => byteOf s.L s.LB
  | _ => 0

/-- Mover input V, lines 1993-2012. -/
def vBus (w : Word) (s : S) : B :=
  match w.mv with
  | 1 => byteOf s.M s.LB
  | 2 => byteOf s.M s.MB
  | _ => 0

/-- The emit field as a byte. -/
def ceB (w : Word) : B := BitVec.ofNat 8 w.ce

/-- Mover function, left half, lines 2036-2070. -/
def mvfL (f : BitVec 3) (u v : B) : B :=
  match f.toNat with
  | 0 => (u &&& 0x0f) <<< 4
  | 1 => (v ||| u) &&& 0xf0
  | 2 => (v &&& u) &&& 0xf0
  | 3 => (v ^^^ u) &&& 0xf0
  | 4 => u &&& 0xf0
  | 5 => u &&& 0xf0
  | 6 => v &&& 0xf0
  | _ => 0

/-- Mover output, left half, lines 2023-2108. -/
def moverL (w : Word) (s : S) (u v : B) : B :=
  match w.ul with
  | 0 => ceB w <<< 4
  | 1 => u &&& 0xf0
  | 2 => v &&& 0xf0
  | _ => mvfL s.mvf u v

/-- Mover function, right half, lines 2124-2158. -/
def mvfR (f : BitVec 3) (u v : B) : B :=
  match f.toNat with
  | 0 => (u &&& 0xf0) >>> 4
  | 1 => (v ||| u) &&& 0x0f
  | 2 => (v &&& u) &&& 0x0f
  | 3 => (v ^^^ u) &&& 0x0f
  | 4 => u &&& 0x0f
  | 5 => v &&& 0x0f
  | 6 => u &&& 0x0f
  | _ => 0

/-- Mover output, right half, lines 2111-2197. -/
def moverR (w : Word) (s : S) (u v : B) : B :=
  match w.ur with
  | 0 => ceB w
  | 1 => u &&& 0x0f
  | 2 => v &&& 0x0f
  | _ => mvfR s.mvf u v

/-- First part of a cycle, lines 1088-1640, 1643-1730, 1949-2197: branch conditions, adder
inputs, mover. -/
def front (e : Env) (w : Word) (ex : Bool) (s : S) : X :=
  { s := { s with
             timUp := (if w.ab = 37 then false else s.timUp),
             timIrq := (if w.lu = 4 then false else s.timIrq),
             intr := (if w.lu = 4 && !s.timIrq then false else s.intr),
             u := uBus w s,
             EDST := (if vBus w s &&& 0xfc = 0x20 then (vBus w s).setWidth 2 else 3),
             w := moverL w s (uBus w s) (vBus w s) ||| moverR w s (uBus w s) (vBus w s) },
    nro := nextBase w s |||
      abBits (combine w.zn (condA e w ex s).1 (condB e w ex s (condA e w ex s).2)),
    a := (combine w.zn (condA e w ex s).1 (condB e w ex s (condA e w ex s).2)).1,
    b := (combine w.zn (condA e w ex s).1 (condB e w ex s (condA e w ex s).2)).2,
    lu := s.L, su := s.St, mdOld := s.MD,
    left := leftIn w s, right := rightIn w s, v := vBus w s }

/-- Carry into the adder from `ad`, lines 2272-2298. -/
def adCin (w : Word) (s : S) : Bool :=
  match w.ad with
  | 2 => s.F == 0
  | 9 => s.St.s1
  | 10 => s.St.s1
  | 12 => s.St.s1
  | _ => false

/-- The address `IA+0/2->A` sends to storage, lines 2348-2352. -/
def ifAddr (refetch : Bool) (ia : W) : W := if refetch then ia else ia + 2

/-- The fetch is left out: `SMIF` and the instruction is in the buffer, lines 2344-2347. -/
def smif (w : Word) (refetch : Bool) (ia : W) : Bool := w.zn == 1 && !refetch && ia &&& 2 != 0

/-- Instruction address register and instruction fetch, lines 2301-2360. -/
def ivStep (e : Env) (w : Word) (x : X) : X :=
  match w.iv with
  | 1 => { x with nro := if (0x90 : B) < x.s.w &&& 0xf0 then 0x140 else x.nro }
  | 2 => { x with nro := if (0x09 : B) < x.s.w &&& 0x0f then 0x140 else x.nro }
  | 3 => { x with nro := if (0x90 : B) < x.s.w &&& 0xf0 ∨ (0x09 : B) < x.s.w &&& 0x0f
                         then 0x140 else x.nro }
  | 4 => { x with s := { x.s with
            IA := if x.s.IA &&& 1 = 0 then x.s.IA + 4 else x.s.IA,
            SAR := if x.s.IA &&& 1 = 0 then x.s.IA + 4 else x.s.SAR,
            IVA := x.s.IVA || x.s.IA &&& 1 != 0 || decide (e.memMax < x.s.IA + 4),
            initMem := x.s.initMem || (x.s.IA &&& 1 == 0 && !decide (e.memMax < x.s.IA + 4)) } }
  | 5 => { x with s := { x.s with IA := if x.s.ILC &&& 2 = 0 then x.s.IA + 2 else x.s.IA + 4 } }
  | 6 => { x with s := { x.s with IA := x.s.IA + 2 } }
  | 7 => { x with s := { x.s with
            SAR := if smif w x.s.REFETCH x.s.IA then x.s.SAR else ifAddr x.s.REFETCH x.s.IA,
            IVA := x.s.IVA || (!smif w x.s.REFETCH x.s.IA &&
              decide (e.memMax < ifAddr x.s.REFETCH x.s.IA)),
            initMem := x.s.initMem || (!smif w x.s.REFETCH x.s.IA &&
              !decide (e.memMax < ifAddr x.s.REFETCH x.s.IA)) } }
  | _ => x

/-- Counter G and the carry into the adder, lines 2373-2424. -/
def dgStep (w : Word) (x : X) : X :=
  match w.dg with
  | 1 => { x with cin := x.s.CAR }
  | 2 => { x with cin := true }
  | 3 => { x with s := { x.s with
              G1NEG := x.s.G1NEG || x.s.G &&& 0xf0 == 0,
              G := (x.s.G &&& 0x0f) ||| ((x.s.G - 0x10) &&& 0xf0) } }
  | 4 => { x with cin := true, s := { x.s with
              G1NEG := x.s.G1NEG || x.s.G == 0,
              G2NEG := x.s.G2NEG || x.s.G &&& 0x0f == 0,
              G := x.s.G - 1 } }
  | 5 => { x with s := { x.s with
              G2NEG := x.s.G2NEG || x.s.G &&& 0x0f == 0,
              G := (x.s.G &&& 0xf0) ||| ((x.s.G - 1) &&& 0x0f) } }
  | 6 => { x with s := { x.s with
              G1NEG := x.s.G1NEG || x.s.G == 0,
              G2NEG := x.s.G2NEG || x.s.G &&& 0x0f == 0,
              G := x.s.G - 1 } }
  | 7 => { x with s := { x.s with
              G1NEG := x.s.G1NEG || x.s.G &&& 0xf0 == 0,
              G2NEG := x.s.G2NEG || x.s.G &&& 0x0f == 0,
              G := (((x.s.G &&& 0xf) - 1) &&& 0xf) ||| ((x.s.G - 0x10) &&& 0xf0) } }
  | _ => x

/-- A carry as a word. -/
def cinW (c : Bool) : W := if c then 1 else 0

/-- Carries out of every position, lines 2430-2431. -/
def carriesOf (l r out : W) : W := (l &&& r) ||| ((l ^^^ r) &&& ~~~out)

/-- The adder, lines 2428-2432. -/
def adder (x : X) : X :=
  { x with s := { x.s with alu := x.left + x.right + cinW x.cin },
           carries := carriesOf x.left x.right (x.left + x.right + cinW x.cin),
           cout := (carriesOf x.left x.right (x.left + x.right + cinW x.cin)).msb }

/-- Sum of the leftmost bytes alone, lines 2455-2463, 2478-2481. -/
def topSum (l r out : W) (hot : W) : W :=
  (((l &&& 0xff000000) + (r &&& 0xff000000) + hot) &&& 0xff000000) ||| (out &&& 0x00ffffff)

/-- Sixes for the digits which are five or more, lines 2515-2518. -/
def sixes5 (x : W) : W :=
  (List.range 8).foldl
    (fun acc i => if 5 ≤ nib x i then acc ||| (6#32 <<< (4 * i)) else acc) 0

/-- Carry out of the leftmost byte selected by `BS`, lines 2546-2559. -/
def bsCarry (bs : BitVec 4) (c : W) : Bool :=
  if bs &&& 8 != 0 then c.msb
  else if bs &&& 4 != 0 then c &&& 0x00800000 != 0
  else if bs &&& 2 != 0 then c &&& 0x00008000 != 0
  else if bs &&& 1 != 0 then c &&& 0x00000080 != 0
  else false

/-- Adder functions, lines 2434-2572. -/
def adStep (w : Word) (x : X) : X :=
  match w.ad with
  | 4 => { x with s := { x.s with CAR := x.carries.msb }, cout := x.carries.msb }
  | 5 => { x with cout := (x.carries ^^^ (x.carries <<< 1)).msb }
  | 6 =>
    { x with
      s := { x.s with
        alu := topSum x.left x.right x.s.alu (if w.al = 23 then 0x01000000 else 0),
        CAR := carriesOf x.left x.right
          (topSum x.left x.right x.s.alu (if w.al = 23 then 0x01000000 else 0))
            &&& 0x40000000 != 0 },
      carries := carriesOf x.left x.right
          (topSum x.left x.right x.s.alu (if w.al = 23 then 0x01000000 else 0)),
      cout := carriesOf x.left x.right
          (topSum x.left x.right x.s.alu (if w.al = 23 then 0x01000000 else 0))
            &&& 0x40000000 != 0 }
  | 7 =>
    { x with
      s := { x.s with
        alu := topSum x.left x.right x.s.alu 0,
        CAR := carriesOf x.left x.right (topSum x.left x.right x.s.alu 0)
            &&& 0x00800000 != 0 },
      carries := carriesOf x.left x.right (topSum x.left x.right x.s.alu 0),
      cout := carriesOf x.left x.right (topSum x.left x.right x.s.alu 0)
            &&& 0x00800000 != 0 }
  | 8 =>
    { x with lu := (((0x22222222 &&& x.s.alu) >>> 3) ||| ((0x22222222 &&& x.s.alu) >>> 4)) |||
        (if x.s.AUX then 0x60000000 else 0) }
  | 9 =>
    { x with lu := (((0x88888888 &&& ~~~x.carries) >>> 1) |||
                    ((0x88888888 &&& ~~~x.carries) >>> 2)),
             su := { x.su with s1 := x.carries.msb } }
  | 10 => { x with lu := sixes5 x.s.alu, su := { x.su with s1 := x.carries.msb } }
  | 11 =>
    { x with lu := (((0x22222222 &&& x.s.alu) >>> 3) ||| ((0x22222222 &&& x.s.alu) >>> 4)),
             s := { x.s with AUX := x.s.alu &&& 2 != 0 } }
  | 12 =>
    { x with lu := (((0x88888888 &&& ~~~x.carries) >>> 1) |||
                    ((0x88888888 &&& ~~~x.carries) >>> 2)),
             su := { x.su with s1 := bsCarry x.s.BS x.carries } }
  | _ => x

/-- Branch on the adder's own result, lines 2575-2612. -/
def lateB (w : Word) (x : X) : X :=
  match w.bb with
  | 30 => { x with nro := (x.nro / 4 * 4) ||| abBits (combine w.zn x.a (x.b || x.cout)) }
  | 31 => { x with nro := (x.nro / 4 * 4) ||| abBits (combine w.zn x.a (x.b || x.s.alu.msb)) }
  | _ => x

/-- A bit as a word. -/
def bitW (b : Bool) : W := if b then 1 else 0

/-- `(x & 1) << 3 | F >> 1`. -/
def fIn (o : W) (f : B) : B := ((o &&& 1).setWidth 8 <<< 3) ||| (f >>> 1)

/-- Low digit as a byte. -/
def loDig (o : W) : B := (o &&& 0xf).setWidth 8

/-- High digit as a byte. -/
def hiDig (o : W) : B := (o >>> 28).setWidth 8

/-- Shifter, lines 2615-2822. The panel's channel keys at `DKEY->` (lines 2752-2768) are at
rest; `CH->` (case 29) is the outcome `chan` in `exec`. -/
def alStep (e : Env) (w : Word) (x : X) : X :=
  match w.al with
  | 0 => { x with s := { x.s with aob := x.s.alu } }
  | 1 => { x with s := { x.s with
            aob := (x.s.alu >>> 1) ||| (if x.s.Q then 0x80000000 else 0),
            F := fIn x.s.alu x.s.F } }
  | 2 => { x with s := { x.s with
            aob := (if x.s.St.s4 then 0 else 0x80000000) ||| (x.s.L &&& 0x7f000000) |||
                   (x.s.alu &&& 0xffffff) } }
  | 3 => { x with s := { x.s with aob := x.s.alu &&& 0x7fffffff } }
  | 4 => { x with s := { x.s with aob := x.s.alu ||| 0x80000000 } }
  | 5 => { x with s := { x.s with
            aob := (if x.s.St.s4 then 0x80000000 else 0) ||| (x.s.L &&& 0x7f000000) |||
                   (x.s.alu &&& 0xffffff) } }
  | 6 => { x with s := { x.s with
            H := (x.s.H &&& 0xff000000) ||| (x.s.IA &&& 0xffffff),
            aob := x.s.alu } }
  | 7 => { x with s := { x.s with
            aob := (x.s.alu <<< 1) ||| bitW x.s.Q,
            F := (((x.s.alu >>> 31).setWidth 8 ||| (x.s.F <<< 1)) &&& 0xf) ^^^ 1 } }
  | 8 => { x with s := { x.s with
            aob := (x.s.alu <<< 1) ||| bitW x.s.Q,
            F := ((x.s.alu >>> 31).setWidth 8 ||| (x.s.F <<< 1)) &&& 0xf } }
  | 9 => { x with s := { x.s with
            aob := (x.s.alu <<< 1) ||| bitW (x.s.F &&& 8 != 0),
            F := ((x.s.alu >>> 31).setWidth 8 ||| (x.s.F <<< 1)) &&& 0xf } }
  | 10 => { x with s := { x.s with aob := x.s.alu <<< 1, Q := x.s.alu.msb } }
  | 11 => { x with s := { x.s with aob := (x.s.alu <<< 1) ||| bitW x.s.Q } }
  | 12 => { x with s := { x.s with aob := x.s.alu >>> 1, F := fIn x.s.alu x.s.F } }
  | 13 => { x with s := { x.s with aob := x.s.alu >>> 1, Q := x.s.alu &&& 1 != 0 } }
  | 14 => { x with s := { x.s with
            aob := (x.s.alu >>> 1) ||| (if x.s.Q then 0x80000000 else 0),
            Q := x.s.alu &&& 1 != 0 } }
  | 15 => { x with s := { x.s with
            aob := (x.s.alu <<< 1) ||| bitW (x.s.F &&& 8 != 0),
            F := x.s.F <<< 1, Q := x.s.alu.msb } }
  | 16 => { x with s := { x.s with aob := x.s.alu <<< 4, F := hiDig x.s.alu } }
  | 17 => { x with s := { x.s with
            aob := (x.s.alu <<< 4) ||| (x.s.F &&& 0xf).setWidth 32, F := hiDig x.s.alu } }
  | 18 => { x with s := { x.s with
            aob := ((x.s.alu <<< 4) &&& 0xfffff0) ||| (x.s.alu &&& 0xff000000) } }
  | 19 => { x with s := { x.s with
            aob := ((x.s.alu <<< 4) &&& 0xfffff0) ||| (x.s.alu &&& 0xff000000) |||
                   (x.s.F &&& 0xf).setWidth 32 } }
  | 20 => { x with s := { x.s with aob := x.s.alu >>> 4, F := loDig x.s.alu } }
  | 21 => { x with s := { x.s with
            aob := (x.s.alu >>> 4) ||| ((x.s.F &&& 0xf).setWidth 32 <<< 28),
            F := loDig x.s.alu } }
  | 22 => { x with s := { x.s with
            aob := (x.s.alu &&& 0xffffff) >>> 4, F := loDig x.s.alu } }
  | 23 => { x with s := { x.s with
            aob := ((x.s.alu &&& 0xffffff) >>> 4) ||| (x.s.alu &&& 0xff000000) ||| 0x100000,
            F := loDig x.s.alu } }
  | 24 => { x with s := { x.s with
            aob := x.s.alu >>> 4,
            H := ((x.s.alu &&& 0xf) <<< 28) ||| (x.s.H &&& 0x0fffffff),
            R := ((x.s.alu &&& 0x0f000000) <<< 4) ||| (x.s.R &&& 0x0fffffff) } }
  | 25 => { x with s := { x.s with
            aob := (x.s.alu >>> 4) ||| ((x.s.F &&& 0xf).setWidth 32 <<< 28) } }
  | 26 => { x with s := { x.s with
            aob := ((x.s.alu <<< 4) &&& 0xfffff0) ||| (x.s.alu &&& 0xff000000) |||
                   BitVec.ofNat 32 (w.ce % 16) } }
  | 27 => { x with s := { x.s with
            aob := (x.s.alu >>> 1) ||| ((x.s.F &&& 1).setWidth 32 <<< 31),
            Q := x.s.alu &&& 1 != 0 } }
  | 28 => { x with s := { x.s with aob := e.dkeys } }
  | 30 => { x with s := { x.s with aob := x.s.SDR } }
  | 31 => { x with s := { x.s with aob := e.akeys } }
  | _ => x

/-- Status functions done before the registers change, lines 2826-2842. -/
def ssEarly (w : Word) (x : X) : X :=
  match w.ss with
  | 3 => { x with s := { x.s with
            CC := if x.s.SDR &&& bsMask x.s.BS &&& 0x80808080 = 0 then 0 else 1 } }
  | 36 => { x with s := { x.s with LSGNS := x.s.L.msb } }
  | 37 => { x with s := { x.s with RSGNS := x.s.R.msb } }
  | _ => x

/-- Index of the storage key of the addressed block. -/
def keyIx (s : S) : Nat := (s.SAR >>> 11).toNat

/-- Storage protection check before the storage data register changes, lines 2866-2870. -/
def protect (x : X) (k : X → X) : Out X :=
  if x.s.KEY = 0 then .ok (k x)
  else if keyIx x.s < 256 then
    (if x.s.KEY.setWidth 8 = x.s.MP (keyIx x.s) then .ok (k x) else .ok { x with nro := 0x142 })
  else .oob

/-- Instruction length code from the first two bits of the operation, lines 3014-3016. -/
def ilcOf (o : W) : BitVec 2 :=
  if o &&& 0xc0000000 = 0 then 1 else if o &&& 0xc0000000 = 0xc0000000 then 3 else 2

/-- Destination of the adder, lines 2845-3082. -/
def trStep (e : Env) (w : Word) (x : X) : Out X :=
  match w.tr with
  | 1 => .ok { x with s := { x.s with
          R := if w.al = 24 then ((x.s.aob &&& 0x0f000000) <<< 4) ||| (x.s.aob &&& 0x0fffffff)
               else x.s.aob } }
  | 2 => .ok { x with s := { x.s with
          R := (x.s.aob &&& 0xff000000) ||| (x.s.R &&& 0x00ffffff) } }
  | 3 => .ok { x with s := { x.s with M := x.s.aob } }
  | 4 => protect x fun x => { x with s := { x.s with SDR := x.s.aob, updD := true } }
  | 5 => .ok { x with lu := (x.s.aob &&& 0xff000000) ||| (x.s.L &&& 0x00ffffff) }
  | 6 => .ok { x with s := { x.s with
          R := x.s.aob, SAR := x.s.aob &&& 0xffffff, initMem := true } }
  | 7 => .ok { x with lu := x.s.aob }
  | 8 =>
    match w.ce % 8 with
    | 0 => .ok { x with s := { x.s with SAR := 0x80, initMem := true, updD := true } }
    | 1 => .ok { x with s := { x.s with SAR := 0x80, initMem := true } }
    | 2 => .ok { x with s := { x.s with SAR := 0x80, initMem := true } }
    | 4 => .ok { x with s := { x.s with SAR := 0x84, IA := 0x84, initMem := true, updD := true } }
    | 5 => .ok { x with s := { x.s with SAR := 0x84, IA := 0x84, initMem := true } }
    | _ => .ok x
  | 9 => .ok { x with s := { x.s with
          R := x.s.aob, SAR := x.s.aob &&& 0xffffff,
          IVA := x.s.IVA || decide (e.memMax < x.s.aob &&& 0xffffff),
          initMem := x.s.initMem || !decide (e.memMax < x.s.aob &&& 0xffffff) } }
  | 10 => .ok { x with
          nro := (if x.s.aob &&& 0xffffff &&& 3 = 0 then x.nro else 0x1c2),
          s := { x.s with
            R := x.s.aob, SAR := x.s.aob &&& 0xffffff,
            initMem := x.s.initMem || x.s.aob &&& 0xffffff &&& 3 == 0 } }
  | 11 => .ok { x with
          nro := (if x.s.aob &&& 0xffffff &&& 7 = 0 then x.nro else 0x1c2),
          s := { x.s with
            R := x.s.aob, SAR := x.s.aob &&& 0xffffff,
            initMem := x.s.initMem || x.s.aob &&& 0xffffff &&& 7 == 0 } }
  | 12 => .ok { x with s := { x.s with IA := x.s.SDR } }
  | 13 => protect x fun x => { x with s := { x.s with SDR := 0, updD := true } }
  | 14 => .ok { x with s := { x.s with
          R := (x.s.R &&& 0xff000000) ||| (x.s.aob &&& 0x00ffffff) } }
  | 15 => .ok { x with s := { x.s with SAR := x.s.aob &&& 0xffffff, initMem := true } }
  | 16 => .ok { x with lu := x.s.aob,
                       s := { x.s with SAR := x.s.aob &&& 0xffffff, initMem := true } }
  | 17 => protect { x with s := { x.s with R := x.s.aob } }
            fun x => { x with s := { x.s with SDR := x.s.aob, updD := true } }
  | 19 => .ok { x with s := { x.s with R := x.s.aob } }
  | 20 => .ok { x with s := { x.s with H := x.s.aob } }
  | 21 => .ok { x with s := { x.s with IA := x.s.aob &&& 0x00ffffff } }
  | 24 => .ok { x with lu := x.s.aob, s := { x.s with M := x.s.aob } }
  | 25 => .ok { x with lu := x.s.aob,
                       s := { x.s with M := x.s.aob, J := (x.s.aob >>> 16).setWidth 4,
                                       MD := (x.s.aob >>> 12).setWidth 4, REFETCH := false,
                                       SYLS1 := (x.s.aob >>> 12).setWidth 4 &&& 0xc == 0#4,
                                       ILC := ilcOf x.s.aob },
                       su := { x.su with s0 := (x.s.aob >>> 16).setWidth 4 == 0#4,
                                         s1 := (x.s.aob >>> 12).setWidth 4 == 0#4 } }
  | 26 => .ok { x with lu := x.s.aob,
                       s := { x.s with
                         M := (x.s.M &&& 0xffff0000) ||| (x.s.aob >>> 16),
                         MD := (x.s.aob >>> 28).setWidth 4 } }
  | 27 => .ok { x with s := { x.s with MD := (x.s.aob >>> 20).setWidth 4 } }
  | 28 => .ok { x with s := { x.s with M := x.s.aob, KEY := (x.s.aob >>> 20).setWidth 4 } }
  | 29 => protect x fun x => { x with s := { x.s with
            SDR := (x.s.SDR &&& ~~~(bsMask x.s.BS)) ||| (x.s.aob &&& bsMask x.s.BS),
            updD := true } }
  | 30 => .ok { x with lu := (x.s.L &&& 0xff000000) ||| (x.s.aob &&& 0x00ffffff) }
  | 31 => .ok { x with s := { x.s with J := (x.s.aob >>> 16).setWidth 4 } }
  | _ => .ok x

/-- Bit `i` of the emit field, 0 the leftmost of four. -/
def ceBit (w : Word) (i : Nat) : Bool := w.ce.testBit (3 - i)

/-- Sign codes: is the low digit below ten, is it a minus sign. -/
def loNib (b : B) : Nat := b.toNat % 16

/-- Exponent difference and the status bits of a floating point operation, lines 3402-3471. -/
def fpStats (x : X) : X :=
  { x with
    s := { x.s with ED :=
      if (x.carries &&& 0x40000000 != 0 && x.s.alu &&& 0x78000000 != 0) ||
         (x.carries &&& 0x40000000 == 0 && x.s.alu &&& 0x78000000 == 0x78000000)
      then 8 ||| ((x.s.alu >>> 24).setWidth 4 &&& 7) else (x.s.alu >>> 24).setWidth 4 &&& 7 },
    su := { x.su with
      s7 := (if (x.carries &&& 0x40000000 != 0 && x.s.alu &&& 0x78000000 != 0) ||
         (x.carries &&& 0x40000000 == 0 && x.s.alu &&& 0x78000000 == 0x78000000)
        then false else (x.s.alu >>> 24).setWidth 4 &&& 7 == 0#4),
      s6 := (x.s.alu &&& 0x70000000 == 0 || x.s.alu &&& 0x70000000 == 0x70000000),
      s5 := (x.su.s1 != (x.right.msb != x.left.msb)),
      s4 := ((x.su.s0 || x.su.s1) && x.right.msb && x.carries.msb) ||
        (x.su.s0 && !x.right.msb && !x.left.msb && x.cout) ||
        (x.su.s0 && !x.right.msb && x.left.msb && !x.carries.msb && x.cout) ||
        (x.su.s1 && !x.right.msb && x.left.msb && x.carries.msb && x.cout) ||
        ((x.su.s0 || x.su.s1) && x.right.msb && !x.left.msb && !x.carries.msb) ||
        (x.su.s0 && x.right.msb && !x.left.msb && x.carries.msb && x.cout) ||
        (x.su.s0 && x.right.msb && x.left.msb && !x.cout) ||
        (x.su.s1 && x.right.msb && x.left.msb) ||
        (!x.su.s0 && !x.su.s1 && !x.su.s3 && x.right.msb != x.left.msb) ||
        (!x.su.s0 && !x.su.s1 && x.su.s3 && x.right.msb == x.left.msb) } }

/-- Status functions, lines 3203-3664. Functions of the channel (48, 50, 52, 58, 60-63) are
the outcome `chan` in `exec`; 21, 22, 47, 49, 51, 53, 57 do nothing; the panel is at rest at
28 and 46. -/
def ssLate (e : Env) (w : Word) (x : X) : Out X :=
  match w.ss with
  | 5 => .ok { x with
          nro := (if loNib x.s.u < 0xa then 0x140 else x.nro),
          s := { x.s with
            LSGNS := (if loNib x.s.u < 0xa then x.s.LSGNS
                      else decide (loNib x.s.u = 0xb ∨ loNib x.s.u = 0xd)),
            RSGNS := (if loNib x.s.u = 0xb ∨ loNib x.s.u = 0xd then !x.s.RSGNS
                      else x.s.RSGNS) } }
  | 6 => .ok { x with
          nro := (if loNib x.s.u < 0xa then 0x140 else x.nro),
          s := { x.s with
            RSGNS := (if loNib x.s.u = 0xb ∨ loNib x.s.u = 0xd then !x.s.RSGNS
                      else x.s.RSGNS) } }
  | 7 => .ok { x with s := { x.s with
          RSGNS := decide (9 < loNib x.s.w),
          LSGNS := (if 9 < loNib x.s.w ∧ ¬(loNib x.s.w = 0xb ∨ loNib x.s.w = 0xd) then false
                    else x.s.LSGNS) } }
  | 8 => .ok { x with su := { x.su with
            s0 := ceBit w 0, s1 := ceBit w 1, s2 := ceBit w 2, s3 := ceBit w 3 } }
  | 9 => .ok { x with s := { x.s with LSGNS := true }, su := { x.su with
            s0 := x.su.s0 || ceBit w 0, s1 := x.su.s1 || ceBit w 1,
            s2 := x.su.s2 || ceBit w 2, s3 := x.su.s3 || ceBit w 3 } }
  | 10 => .ok { x with su := { x.su with
            s0 := x.su.s0 || ceBit w 0, s1 := x.su.s1 || ceBit w 1,
            s2 := x.su.s2 || ceBit w 2, s3 := x.su.s3 || ceBit w 3 } }
  | 11 => .ok { x with s := { x.s with BS := 0 }, su := { x.su with
            s0 := x.su.s0 || ceBit w 0, s1 := x.su.s1 || ceBit w 1,
            s2 := x.su.s2 || ceBit w 2, s3 := x.su.s3 || ceBit w 3 } }
  | 12 => .ok { x with
            s := { x.s with SYLS1 := decide (x.s.aob >>> 28 ≤ 3#32) },
            su := { x.su with s0 := x.s.aob &&& 0x000f0000 == 0,
                              s1 := x.s.aob &&& 0xf0000000 == 0 } }
  | 13 => .ok { x with su := { x.su with
            s0 := x.s.aob &&& 0x00ffffff == 0 && x.s.F == 0 && x.su.s3 } }
  | 14 => .ok { x with s := { x.s with FN := BitVec.ofNat 2 w.ce }, su := { x.su with
            s0 := x.s.aob &&& 0x00ffffff == 0 && x.s.F == 0 && x.su.s3 } }
  | 15 => .ok { x with
            s := { x.s with SYLS1 := x.s.aob &&& 0x0000c000 == 0 },
            su := { x.su with s1 := x.s.aob &&& 0xf0000000 == 0 } }
  | 16 => .ok { x with su := { x.su with
            s0 := x.su.s0 && !ceBit w 0, s1 := x.su.s1 && !ceBit w 1,
            s2 := x.su.s2 && !ceBit w 2, s3 := x.su.s3 && !ceBit w 3 } }
  | 17 => .ok { x with su := { x.su with s3 := x.s.aob == 0 } }
  | 18 => .ok { x with s := { x.s with BS := BitVec.ofNat 4 w.ce },
                       su := { x.su with s3 := x.s.aob &&& 2 != 0 } }
  | 19 => .ok { x with s := { x.s with BS := BitVec.ofNat 4 w.ce } }
  | 20 => .ok { x with s := { x.s with BS := x.s.BS ||| (8#4 >>> x.s.MB.toNat) } }
  | 23 => .ok { x with s := { x.s with stop := x.s.stop || x.s.man } }
  | 24 => .ok { x with su := { x.su with
            s4 := ceBit w 0, s5 := ceBit w 1, s6 := ceBit w 2, s7 := ceBit w 3 } }
  | 25 => .ok { x with su := { x.su with
            s4 := x.su.s4 || ceBit w 0, s5 := x.su.s5 || ceBit w 1,
            s6 := x.su.s6 || ceBit w 2, s7 := x.su.s7 || ceBit w 3 } }
  | 26 => .ok { x with su := { x.su with
            s4 := x.su.s4 && !ceBit w 0, s5 := x.su.s5 && !ceBit w 1,
            s6 := x.su.s6 && !ceBit w 2, s7 := x.su.s7 && !ceBit w 3 } }
  | 27 => .ok (fpStats x)
  | 28 => .ok { x with su := { x.su with s4 := false, s5 := false, s6 := false, s7 := false } }
  | 29 => .ok { x with s := { x.s with
            CC := (if x.cout then 2 else 0) ||| (if x.s.alu = 0 then 0 else 1) } }
  | 30 => if keyIx x.s < 256 then .ok { x with s := { x.s with F := x.s.MP (keyIx x.s) } }
          else .oob
  | 31 => if keyIx x.s < 256 then
            .ok { x with s := { x.s with
              MP := fun i => if i = keyIx x.s then x.s.F else x.s.MP i } }
          else .oob
  | 32 => .ok { x with s := { x.s with LSGNS := true } }
  | 33 => .ok { x with s := { x.s with LSGNS := false } }
  | 34 => .ok { x with s := { x.s with RSGNS := true } }
  | 35 => .ok { x with s := { x.s with RSGNS := false } }
  | 38 => .ok { x with s := { x.s with mvf := BitVec.ofNat 3 w.ce } }
  | 39 => .ok { x with s := { x.s with FN := BitVec.ofNat 2 w.ce } }
  | 40 => .ok { x with s := { x.s with CC := BitVec.ofNat 2 w.ce } }
  | 41 => .ok { x with s := { x.s with
            CC := if x.s.aob = 0 then 0 else if x.s.aob.msb then 1 else 2 } }
  | 42 => .ok { x with s := { x.s with
            CC := if x.s.aob &&& bsMask x.s.BS = 0 then 0 else if x.cout then 2 else 1 } }
  | 43 => .ok { x with s := { x.s with CC := if x.s.St.s4 then 1 else 2 } }
  | 44 => .ok { x with s := { x.s with CC := if x.s.St.s4 then 2 else 1 } }
  | 45 => .ok { x with s := { x.s with REFETCH := true } }
  | 54 => .ok { x with s := { x.s with timIrq := true } }
  | 55 => .ok { x with lu := e.ipl }
  | 56 => .ok { x with s := { x.s with
            AMWP := (x.s.aob >>> 16).setWidth 4,
            wait := (x.s.aob >>> 16).setWidth 4 &&& 2 != 0#4 } }
  | _ => .ok x

/-- Local storage address, lines 3770-3795. -/
def wsStep (w : Word) (x : X) : X :=
  match w.ws with
  | 1 => { x with s := { x.s with LSA := 0x11 } }
  | 2 => { x with s := { x.s with LSA := 0x12 } }
  | 3 => { x with s := { x.s with LSA := 1#2 ++ BitVec.ofNat 4 w.ce } }
  | 4 => { x with s := { x.s with LSA := x.s.FN ++ x.s.J } }
  | 5 => { x with s := { x.s with LSA := x.s.FN ++ (x.s.J ||| 1) } }
  | 6 => { x with s := { x.s with LSA := x.s.FN ++ x.mdOld } }
  | 7 => { x with s := { x.s with LSA := x.s.FN ++ (x.mdOld ||| 1) } }
  | _ => x

/-- The mover's output as an ASCII digit or sign, lines 4022-4030. -/
def asciiW (w : B) : B :=
  if (if w &&& 0xf = 0xc then (w &&& 0xf0) ||| 0xa
      else if w &&& 0xf = 0xd then (w &&& 0xf0) ||| 0xb else w) &&& 0xf0 = 0xf0
  then ((if w &&& 0xf = 0xc then (w &&& 0xf0) ||| 0xa
      else if w &&& 0xf = 0xd then (w &&& 0xf0) ||| 0xb else w) &&& 0x0f) ||| 0x50
  else (if w &&& 0xf = 0xc then (w &&& 0xf0) ||| 0xa
      else if w &&& 0xf = 0xd then (w &&& 0xf0) ||| 0xb else w)

/-- Destination of the mover, lines 3797-4046. `W->CHCTL` (7) is the outcome `chan` in
`exec`. -/
def wmStep (w : Word) (x : X) : X :=
  match w.wm with
  | 1 =>
    { x with s := { x.s with
        M := if w.tr = 3 then (x.s.M &&& 0xffffff00) ||| x.s.w.setWidth 32
             else putByte x.s.M x.s.MB x.s.w } }
  | 2 => { x with s := { x.s with MB := x.s.w.setWidth 2 } }
  | 3 => { x with s := { x.s with LB := x.s.w.setWidth 2 } }
  | 4 => { x with s := { x.s with
            timIrq := x.s.timIrq && !x.s.load, timUp := x.s.timUp && !x.s.load, load := false,
            CC := (x.s.w >>> 4).setWidth 2, PMASK := x.s.w.setWidth 4 } }
  | 5 => { x with s := { x.s with MASK := x.s.w } }
  | 6 => { x with s := { x.s with J := (x.s.w >>> 4).setWidth 4 } }
  | 8 => { x with s := { x.s with
            SAR := ((x.s.w &&& 0x3f).setWidth 32 ||| BitVec.ofNat 32 ((w.ce % 4) <<< 12) |||
                    ((x.s.w &&& 0xc0).setWidth 32 <<< 8)) <<< 2,
            initBump := true } }
  | 9 => { x with s := { x.s with
            G := (x.s.G &&& 0xf) ||| (x.s.w &&& 0xf0), G1NEG := false } }
  | 10 => { x with s := { x.s with
            G := (x.s.G &&& 0xf0) ||| (x.s.w &&& 0x0f), G2NEG := false } }
  | 11 => { x with s := { x.s with G := x.s.w, G1NEG := false, G2NEG := false } }
  | 12 => { x with s := { x.s with
            w := if x.s.AMWP &&& 8 != 0 then asciiW x.s.w else x.s.w,
            M := putByte x.s.M x.s.MB (if x.s.AMWP &&& 8 != 0 then asciiW x.s.w else x.s.w) } }
  | 13 => { x with s := { x.s with MD := (x.s.w >>> 4).setWidth 4 } }
  | 14 => { x with s := { x.s with F := x.s.w &&& 0x0f } }
  | 15 => { x with s := { x.s with MD := (x.s.w >>> 4).setWidth 4, F := x.s.w &&& 0x0f } }
  | _ => x

/-- Counters, lines 4049-4089. -/
def upStep (w : Word) (x : X) : X :=
  match w.up with
  | 0 => { x with s := { x.s with
            LB := if w.lb = 1 then 0 else x.s.LB,
            MB := if w.mb = 1 then 0 else x.s.MB,
            MD := if w.md = 1 then 0 else x.s.MD } }
  | 1 => { x with s := { x.s with
            LB := if w.lb = 1 then 3 else x.s.LB,
            MB := if w.mb = 1 then 3 else x.s.MB,
            MD := if w.md = 1 then 3 else x.s.MD } }
  | 2 => { x with s := { x.s with
            LB := if w.lb = 1 then x.s.LB - 1 else x.s.LB,
            MB := if w.mb = 1 then x.s.MB - 1 else x.s.MB,
            MD := if w.md = 1 then x.s.MD - 1 else x.s.MD } }
  | _ => { x with s := { x.s with
            LB := if w.lb = 1 then x.s.LB + 1 else x.s.LB,
            MB := if w.mb = 1 then x.s.MB + 1 else x.s.MB,
            MD := if w.md = 1 then x.s.MD + 1 else x.s.MD } }

/-- Write a word of local storage. -/
def lsPut (ls : BitVec 6 → W) (a : BitVec 6) (v : W) : BitVec 6 → W :=
  fun i => if i = a then v else ls i

/-- Local storage, lines 4093-4122, and the end of the cycle, lines 4124-4136. -/
def finish (w : Word) (x : X) : S :=
  match w.sf with
  | 0 => { x.s with LS := lsPut x.s.LS x.s.LSA x.s.R, L := x.lu, St := x.su, ROAR := x.nro }
  | 1 => { x.s with LS := lsPut x.s.LS x.s.LSA x.s.R, L := x.s.LS x.s.LSA, St := x.su,
                    ROAR := x.nro }
  | 2 => { x.s with R := x.s.LS x.s.LSA, L := x.lu, St := x.su, ROAR := x.nro }
  | 4 => { x.s with LS := lsPut x.s.LS x.s.LSA x.lu, L := x.lu, St := x.su, ROAR := x.nro }
  | 5 => { x.s with R := x.s.LS x.s.LSA, LS := lsPut x.s.LS x.s.LSA x.lu, L := x.lu,
                    St := x.su, ROAR := x.nro }
  | 6 => { x.s with L := x.s.LS x.s.LSA, St := x.su, ROAR := x.nro }
  | _ => { x.s with L := x.lu, St := x.su, ROAR := x.nro }

/-- Does the word need the channel, or leave CPU mode. -/
def needsChan (w : Word) : Bool :=
  w.wm == 7 || w.al == 29 || w.ss == 48 || w.ss == 50 || w.ss == 52 || w.ss == 58 ||
  w.ss == 60 || w.ss == 61 || w.ss == 62 || w.ss == 63 ||
  (w.zn == 0 && (w.zf == 2 || w.zf == 14))

/-- The microinstruction itself, lines 1088-4136. -/
def exec (e : Env) (w : Word) (ex : Bool) (s : S) : Out S :=
  if needsChan w then .chan else
  (trStep e w (ssEarly w (alStep e w (lateB w (adStep w (adder (dgStep w (ivStep e w
    { front e w ex s with cin := adCin w s })))))))).bind fun x =>
  (ssLate e w x).bind fun x =>
  .ok (finish w (upStep w (wmStep w (wsStep w x))))

/-- The interval timer asks for an update, lines 623-629. -/
def tickStep (tick : Bool) (s : S) : S :=
  { s with timUp := s.timUp || (tick && !s.man) }

/-- One machine cycle. -/
def cycle (e : Env) (tick : Bool) (s : S) : Out S :=
  (memCycle e (e.ros s.ROAR) (tickStep tick s)).bind fun p =>
    if p.1 then .ok p.2 else exec e (e.ros s.ROAR) (exc (tickStep tick s)) p.2

end Verif.Cpu50
