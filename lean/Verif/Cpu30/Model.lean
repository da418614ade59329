import Verif.Xlat.Model
/-!
# The microinstruction cycle of the model 2030 (src/model2030/cpu2030.c 1040-2408)

One call of cycle_2030 that executes a microinstruction: clock running, no selector channel share cycle and no dead cycle
(`dead_cycle == 0`).  `selShare` models a selector channel share cycle (764-869).

Values the cycle takes from parts that are not modelled are inputs, in `Env`: panel switches, the virtual channel tag
registers (FT, TT, FI, TI, JI, GS, GT, and two GJ values) and channel latches.  Not modelled: tracing, lamps, the hard
stop logic, channel tag lines and channel latches.
-/
namespace Verif.Cpu30

inductive Res (α : Type) where
  | ok (a : α)
  /-- an access outside an array -/
  | oob
deriving Repr, DecidableEq

instance : Monad Res where
  pure := .ok
  bind x f := match x with
    | .ok a => f a
    | .oob => .oob

/-- The fields of a microinstruction, model2030.h 34-53. -/
structure Ros where
  CN : Nat
  CH : Nat
  CL : Nat
  CM : Nat
  CU : Nat
  CA : Nat
  CB : Nat
  CK : Nat
  CD : Nat
  CF : Nat
  CG : Nat
  CV : Nat
  CC : Nat
  CS : Nat
  PK : Nat
deriving Repr, DecidableEq

/-- Widths of the fields as the control store files give them (cros2030.c 131-191). -/
structure Ros.Ok (w : Ros) : Prop where
  CN : w.CN < 256
  CH : w.CH < 16
  CL : w.CL < 16
  CM : w.CM < 8
  CU : w.CU < 4
  CA : w.CA < 32
  CB : w.CB < 4
  CK : w.CK < 32
  CD : w.CD < 16
  CF : w.CF < 8
  CG : w.CG < 4
  CV : w.CV < 4
  CC : w.CC < 8
  CS : w.CS < 32
  PK : w.PK < 2

/-- cpu_2030.store. -/
inductive Store where
  | main
  | mpx
  | loc
deriving Repr, DecidableEq

/-- Registers, model2030.h 56-83. -/
structure Regs where
  C : Nat
  D : Nat
  F : Nat
  G : Nat
  H : Nat
  L : Nat
  Q : Nat
  R : Nat
  S : Nat
  T : Nat
  MC : Nat
  XX : Nat
  mask : Nat
  I : Nat
  J : Nat
  U : Nat
  V : Nat
  O : Nat
  TE : Nat
  JE : Nat
  TA : Nat
  ascii : Bool
  wait : Bool

/-- Storage address registers and the state of the storage cycle. -/
structure Adr where
  M : Nat
  N : Nat
  MN : Nat
  SA : Nat
  store : Store
  readCall : Bool
  allowWrite : Bool

/-- Storage: main storage, its highest address, local and bump storage, protection keys.  The arrays are functions;
accesses are checked against the sizes `memMax + 1`, 4096 and 256. -/
structure Mem where
  main : Nat → Nat
  max : Nat
  ls : Nat → Nat
  mp : Nat → Nat

/-- Protection and wrap latches. -/
structure Latch where
  protectLoc : Bool
  memProt : Bool
  stgProtReq : Bool
  inhStgProt : Bool
  memWrapReq : Bool
  iWrap : Bool
  uWrap : Bool
  uWrapMpx : Bool
  wrapBuf : Bool

/-- Selector channel registers, indexed by the channel 0 or 1. -/
structure Sel where
  GR : Nat → Nat
  GU : Nat → Nat
  GV : Nat → Nat
  GI : Nat → Nat
  GC : Nat → Nat
  GD : Nat → Nat
  GK : Nat → Nat
  GE : Nat → Nat
  GF : Nat → Nat
  GG : Nat → Nat
  GO : Nat → Nat
  ch : Nat
  sav : Nat

/-- Sequencing: control store address and its backups. -/
structure Seq where
  WX : Nat
  FWX : Nat
  GWX : Nat
  stat : Nat
  selRest : Bool
  mpxRest : Bool
  selX : Nat
  mpxX : Nat

structure S where
  r : Regs
  a : Adr
  m : Mem
  l : Latch
  c : Sel
  q : Seq
  evenParity : Bool
  aluChk : Bool

/-- Inputs of a cycle. -/
structure Env where
  interrupt : Bool
  anyPrio : Bool
  /-- suppr_a_reg_chk when the A bus is checked -/
  supprA : Bool
  secondErr : Bool
  chkDisabled : Bool
  /-- `(H_SW << 4) | J_SW` and `(F_SW << 4) | G_SW` -/
  swHJ : Nat
  swFG : Nat
  FT : Nat
  TT : Nat
  FI : Nat
  TI : Nat
  JI : Nat
  GS : Nat
  GT : Nat
  GJ6 : Nat
  GJ7 : Nat
  selIntr0 : Bool
  timer : Bool
  /-- `(MPX_TI & CHAN_OPR_IN) == 0 && t_request` -/
  tReq : Bool

def upd (f : Nat → Nat) (i v : Nat) : Nat → Nat := fun j => if j = i then v else f j

/-- `(x & m) != 0` -/
def bit (x m : Nat) : Bool := x &&& m != 0

/-- `x & ~m` on 16 bits -/
def clr (x m : Nat) : Nat := x &&& (0xffff ^^^ m)

/-- `odd_parity[v]`, xlat.c 100-134: an index above 255 is outside the table. -/
def odd (v : Nat) : Res Nat :=
  match Xlat.oddParity v with
  | some p => .ok p
  | none => .oob

/-- `((odd_parity[v & 0xff] ^ v) & 0x100) != 0` -/
def badParity (v : Nat) : Res Bool := do
  let p ← odd (v &&& 0xff)
  .ok (bit (p ^^^ v) 0x100)

/-! ## Storage -/

/-- `M[i]` as a value. -/
def Mem.get (m : Mem) (i : Nat) : Res Nat := if i ≤ m.max then .ok (m.main i) else .oob

/-- `M[i] = v;` -/
def Mem.put (m : Mem) (i v : Nat) : Res Mem := if i ≤ m.max then .ok { m with main := upd m.main i v } else .oob

/-- `cpu_2030.LS[i]` -/
def Mem.getLS (m : Mem) (i : Nat) : Res Nat := if i < 4096 then .ok (m.ls i) else .oob

def Mem.putLS (m : Mem) (i v : Nat) : Res Mem := if i < 4096 then .ok { m with ls := upd m.ls i v } else .oob

/-- `cpu_2030.MP[i]` -/
def Mem.getMP (m : Mem) (i : Nat) : Res Nat := if i < 256 then .ok (m.mp i) else .oob

def Mem.putMP (m : Mem) (i v : Nat) : Res Mem := if i < 256 then .ok { m with mp := upd m.mp i v } else .oob

/-- "Check if in range of memory": `((0xFFFF ^ mem_max) & MN_REG) != 0`. -/
def outOfRange (s : S) : Bool := bit (0xffff ^^^ s.m.max) s.a.MN

/-- The key check, cpu2030.c 1057-1067: the key of the location goes to the low half of Q, and is compared with the high
half.  1069-1073 is the same without check for the multiplexor storage. -/
def keyCheck (w : Ros) (s : S) : Res S := do
  let k ← s.m.getMP s.a.SA
  let q := (s.r.Q &&& 0xf0) ||| (k &&& 0xf)
  let s := { s with r := { s.r with Q := q } }
  if s.a.store = .main ∧ s.l.inhStgProt = false ∧ bit s.r.H 0x04 = false ∧ bit q 0xf0 = true ∧ bit ((q >>> 4) ^^^ q) 0xf = true then
    .ok { s with l := { s.l with protectLoc := true, stgProtReq := s.l.stgProtReq || (w.CM == 2) } }
  else .ok s

/-- The destructive read, cpu2030.c 1074-1096. -/
def readOut (w : Ros) (s : S) : Res S :=
  if s.a.store = .main then do
    let v ← s.m.get s.a.MN
    let m ← s.m.put s.a.MN 0
    if w.CU = 1 then .ok { s with m := m, c := { s.c with GR := upd s.c.GR s.c.ch (v % 65536) } }
    else .ok { s with m := m, r := { s.r with R := v % 65536 } }
  else do
    let v ← s.m.getLS s.a.MN
    let m ← s.m.putLS s.a.MN 0
    if w.CU = 1 then .ok { s with m := m, c := { s.c with GR := upd s.c.GR s.c.ch v } }
    else .ok { s with m := m, r := { s.r with R := v } }

/-- "Check validity of M and N registers", cpu2030.c 1046-1050 and 1225-1229. -/
def checkMN (s : S) : Res S := do
  let bm ← badParity s.a.M
  let bn ← badParity s.a.N
  if bm || bn then .ok { s with r := { s.r with MC := s.r.MC ||| 0x20 }, l := { s.l with memProt := true } } else .ok s

/-- Checks before the read, cpu2030.c 1042-1055. -/
def readCheck (s : S) : Res S := do
  let s ← checkMN { s with l := { s.l with protectLoc := false, memProt := false, stgProtReq := false } }
  if s.a.store = .main ∧ outOfRange s = true then .ok { s with l := { s.l with memProt := true } } else .ok s

/-- Read phase, cpu2030.c 1040-1099. -/
def memRead (w : Ros) (s : S) : Res S :=
  if s.a.readCall then do
    let s ← readCheck s
    let s ← (if (s.a.store = .main ∧ s.l.memProt = false) ∨ s.a.store = .mpx then keyCheck w s else .ok s)
    let s ← (if w.CM ≠ 2 ∧ s.l.memProt = false then readOut w s else .ok s)
    .ok { s with a := { s.a with allowWrite := true, readCall := false } }
  else .ok s

/-- Write back, cpu2030.c 1111-1137. -/
def writeBack (w : Ros) (s : S) : Res S :=
  if s.a.allowWrite then do
    let v := if w.CU = 1 then s.c.GR s.c.ch else s.r.R
    let m ← (match s.a.store with
      | .main => do
        let m ← s.m.put s.a.MN v
        m.putMP s.a.SA (s.r.Q &&& 0xf)
      | .mpx => do
        let m ← s.m.putMP s.a.SA (s.r.Q &&& 0xf)
        m.putLS (s.a.MN &&& 0x7ff) v
      | .loc => s.m.putLS (s.a.MN &&& 0x7ff) v)
    .ok { s with m := m, a := { s.a with allowWrite := false, readCall := false }, l := { s.l with inhStgProt := false } }
  else .ok s

/-- The address part of the switch on CM, cpu2030.c 1141-1171. -/
def setMN (w : Ros) (s : S) : Res S :=
  let go (m n : Nat) (inh : Bool) : S := { s with a := { s.a with M := m, N := n }, l := { s.l with inhStgProt := inh } }
  match w.CM with
  | 3 => .ok (go s.r.I s.r.J false)
  | 4 => .ok (go s.r.U s.r.V false)
  | 5 => .ok (go 0x100 s.r.T true)
  | 6 => do
    let n := 0x88 ||| ((w.CN &&& 0x80) >>> 2) ||| ((w.CK &&& 0x8) <<< 1) ||| (w.CK &&& 0x7)
    let n := if s.c.ch ≠ 0 ∧ ((w.CK &&& 0x1e) = 6 ∨ w.CK = 5) then n ||| 0x10 else n
    let p ← odd n
    .ok (go 0x100 (n ||| p) true)
  | 7 => .ok (go (s.c.GU s.c.ch) (s.c.GV s.c.ch) false)
  | _ => .ok s

/-- The storage selected by CU and the wrap request, cpu2030.c 1175-1214.  The range check uses the storage address of the
previous request (1180). -/
def selStore (w : Ros) (s : S) : Res S :=
  let s := { s with a := { s.a with store := .main }, l := { s.l with memWrapReq := false } }
  match w.CU with
  | 0 =>
    let h6 := bit s.r.H 0x02
    let wrap := outOfRange s || (s.l.iWrap && w.CM == 3 && !h6) || (s.l.uWrap && w.CM == 4 && !h6) ||
      (s.l.uWrapMpx && w.CM == 4 && h6)
    .ok { s with l := { s.l with memWrapReq := wrap } }
  | 1 => do
    let p ← odd 0xe0
    .ok { s with a := { s.a with store := .loc, M := 0xe0 ||| p } }
  | 2 => do
    let p ← odd s.r.XX
    .ok { s with a := { s.a with store := .mpx, M := s.r.XX ||| p, SA := (s.r.XX &&& 0xe0) ||| ((s.a.N >>> 3) &&& 0x1f) } }
  | _ =>
    if bit s.r.G 0xc0 = false then do
      let p ← odd 0xe0
      .ok { s with a := { s.a with store := .loc, M := 0xe0 ||| p } }
    else .ok s

/-- The read request and the storage address, cpu2030.c 1215-1223. -/
def setAddr (s : S) : S :=
  let rc := s.a.readCall || (!s.a.allowWrite && !s.l.memWrapReq)
  if s.a.store = .main then
    { s with a := { s.a with readCall := rc, MN := ((s.a.M &&& 0xff) <<< 8) ||| (s.a.N &&& 0xff), SA := 0xe0 ||| ((s.a.M >>> 3) &&& 0x1f) } }
  else { s with a := { s.a with readCall := rc, MN := ((s.a.M &&& 0xe0) <<< 3) ||| (s.a.N &&& 0xff) } }

/-- "If load new address, generate SA and Main/MPX request", cpu2030.c 1174-1231. -/
def request (w : Ros) (s : S) : Res S :=
  if w.CM < 3 then .ok s
  else do
    let s ← selStore w s
    checkMN (setAddr s)

/-- Storage control, cpu2030.c 1103-1232. -/
def memCtl (w : Ros) (s : S) : Res S := do
  let s ← (if w.CM = 0 ∨ (w.CM = 2 ∧ s.l.stgProtReq = false) then writeBack w s else .ok s)
  let s ← setMN w s
  request w s

/-! ## Next control store address -/

/-- The X6 bit, cpu2030.c 1238-1301. -/
def x6 (w : Ros) (s : S) : Bool :=
  match w.CH with
  | 1 => true
  | 2 => bit s.r.R 0x80
  | 3 => !bit s.r.V 0x3
  | 4 => bit s.q.stat 0x40
  | 5 => bit s.q.stat 0x20
  | 6 => bit s.q.stat 0x04
  | 7 => bit s.r.S 0x80
  | 8 => bit s.r.S 0x40
  | 9 => bit s.r.S 0x20
  | 10 => bit s.r.S 0x08
  | 11 => bit s.r.S 0x02
  | 12 => bit s.r.G 0x80
  | 13 => bit s.r.G 0x20
  | 14 => bit s.r.G 0x08
  | 15 => bit s.r.G 0x02
  | _ => false

/-- The X7 bit, cpu2030.c 1304-1368 (case 2, CA to W, is in `nextWX`). -/
def x7 (e : Env) (w : Ros) (s : S) : Bool :=
  match w.CL with
  | 1 => true
  | 2 => true
  | 3 => bit s.q.stat 0x80
  | 4 => bit s.q.stat 0x10
  | 5 => !bit ((s.r.R ||| (s.r.R <<< 1)) &&& (s.r.R >>> 1)) 0x44
  | 6 => bit s.q.stat 0x02
  | 7 => bit s.q.stat 0x08
  | 8 => bit s.r.G 0x01
  | 9 => bit s.r.S 0x10
  | 10 => bit s.r.S 0x04
  | 11 => bit s.r.S 0x01
  | 12 => bit s.r.G 0x40
  | 13 => bit s.r.G 0x10
  | 14 => bit s.r.G 0x04
  | 15 => e.interrupt
  | _ => false

/-- Branch address, cpu2030.c 1235-1421. -/
def nextWX (e : Env) (w : Ros) (s : S) : Nat :=
  let n := (s.q.WX &&& 0xf00) ||| w.CN
  let n := if x6 w s then n ||| 2 else n
  let n := if w.CL = 2 then ((w.CA &&& 0xf) <<< 8) ||| (n &&& 0xff) else n
  let n := if x7 e w s then n ||| 1 else n
  let n := match w.CK with
    | 0x11 => ((s.r.U &&& 0xff) <<< 8) ||| (s.r.V &&& 0xff)
    | 0x13 =>
      let n := if s.l.iWrap then n &&& 0xffd else n
      if s.l.uWrapMpx then n &&& 0xffe else n
    | 0x15 => if bit s.q.stat 0x04 then n &&& 0xf00 else n
    | 0x19 => if s.r.ascii then n &&& 0xffd else n
    | 0x1a =>
      if bit s.r.mask 0x40 ∧ (e.selIntr0 ∨ bit (s.c.GF 0) 0x08) then n &&& 0xffe
      else if bit s.r.mask 0x20 ∧ (e.selIntr0 ∨ bit (s.c.GF 1) 0x08) then n &&& 0xffd
      else if (bit s.r.mask 0x01 ∧ s.r.F ≠ 0) ∨ e.timer then n &&& 0xffc
      else n
    | _ => n
  if w.CM < 3 ∧ w.CU = 2 then (n &&& 0xff) ||| ((w.CK &&& 0xf) <<< 8) else n

/-- Restoring X6 and X7 after a channel routine, cpu2030.c 1456-1468. -/
def step (e : Env) (w : Ros) (s : S) : S :=
  let n := nextWX e w s
  let n := if s.q.selRest then (n &&& 0xffc) ||| s.q.selX else n
  let n := if s.q.mpxRest then (n &&& 0xffc) ||| s.q.mpxX else n
  { s with q := { s.q with WX := n, selRest := false, mpxRest := false } }

/-- Functions of CK that do not branch, cpu2030.c 1471-1516. -/
def ckFunc (w : Ros) (s : S) : S :=
  match w.CK with
  | 0x12 => { s with l := { s.l with iWrap := s.l.wrapBuf, uWrap := s.l.wrapBuf } }
  | 0x18 => { s with aluChk := s.aluChk || s.evenParity, evenParity := true }
  | 0x1b => { s with r := { s.r with MC := 0 } }
  | 0x1c => { s with l := { s.l with wrapBuf := s.l.iWrap } }
  | 0x1d => { s with evenParity := false, aluChk := false }
  | 0x1e => { s with r := { s.r with F := s.r.F ^^^ (s.r.F &&& (s.r.L ||| 0x80) &&& 0xff) } }
  | 0x1f => { s with r := { s.r with F := s.r.F ||| 0x80 } }
  | _ => s

/-! ## Buses -/

/-- B bus, cpu2030.c 1518-1546. -/
def busB (e : Env) (w : Ros) (s : S) : Res (Nat × S) := do
  let b ← (if w.CK = 0x14 then do
      let p ← odd e.swHJ
      .ok (e.swHJ ||| p)
    else match w.CB with
      | 0 => .ok s.r.R
      | 1 => .ok s.r.L
      | 2 => .ok s.r.D
      | _ => do
        let v := ((w.CK <<< 4) &&& 0xf0) ||| (w.CK &&& 0xf)
        let p ← odd v
        .ok (v ||| p))
  let bad ← badParity b
  if bad && !e.secondErr then .ok (b, { s with r := { s.r with MC := s.r.MC ||| 0x40 } }) else .ok (b, s)

/-- The source of the A bus and whether its parity may be checked, cpu2030.c 1548-1787. -/
def srcA (e : Env) (w : Ros) (s : S) : Res (Nat × Bool × S) :=
  match w.CA with
  | 0x00 => .ok (e.FT, false, s)
  | 0x01 => .ok (e.TT, false, s)
  | 0x04 => .ok (s.r.S, false, s)
  | 0x05 => .ok (s.r.H, false, s)
  | 0x06 => .ok (e.FI, true, s)
  | 0x07 => .ok (s.r.R, true, s)
  | 0x08 => .ok (s.r.D, true, s)
  | 0x09 => .ok (s.r.L, true, s)
  | 0x0a => .ok (s.r.G, true, s)
  | 0x0b => .ok (s.r.T, true, s)
  | 0x0c => .ok (s.r.V, true, s)
  | 0x0d => .ok (s.r.U, true, s)
  | 0x0e => .ok (s.r.J, true, s)
  | 0x0f => .ok (s.r.I, true, s)
  | 0x10 => .ok (0xffff ^^^ s.r.F, false, s)
  | 0x11 => do
    let p ← odd e.swFG
    .ok (e.swFG ||| p, false, s)
  | 0x12 => .ok (if e.chkDisabled then 0 else s.r.MC, false, s)
  | 0x13 => .ok (0x100, true, s)
  | 0x14 => .ok (s.r.C, false, { s with r := { s.r with C := 0 } })
  | 0x15 => do
    let p ← odd s.r.Q
    .ok (s.r.Q ||| p, true, s)
  | 0x16 => .ok (e.JI, false, s)
  | 0x17 => .ok (e.TI, true, s)
  | 0x1c => do
    let s := if w.CS = 0x1d then { s with c := { s.c with GR := upd s.c.GR s.c.ch (s.c.GI s.c.ch) } } else s
    let bad ← badParity (s.c.GR s.c.ch)
    let s := if bad then { s with c := { s.c with GE := upd s.c.GE s.c.ch (s.c.GE s.c.ch ||| 0x04) } } else s
    .ok (s.c.GR s.c.ch, false, s)
  | 0x1d => do
    let p ← odd e.GS
    .ok (e.GS ||| p, true, s)
  | 0x1e => do
    let p ← odd e.GT
    .ok (e.GT ||| p, false, s)
  | 0x1f =>
    match w.CK with
    | 1 => .ok (s.c.GC s.c.ch, true, s)
    | 2 => .ok (s.c.GD s.c.ch, true, s)
    | 3 => .ok (s.c.GK s.c.ch, true, s)
    | 4 => .ok (if bit (s.c.GF s.c.ch) 0x08 then s.c.GE s.c.ch ||| 0x80 else s.c.GE s.c.ch, false, s)
    | 6 => do
      let p ← odd e.GJ6
      .ok (e.GJ6 ||| p, true, s)
    | 7 => do
      let p ← odd e.GJ7
      .ok (e.GJ7 ||| p, true, s)
    | 8 => .ok (s.c.GO s.c.ch, true, s)
    | _ => .ok (0x100, true, s)
  | _ => .ok (0x100, false, s)

/-- A bus with its check, cpu2030.c 1548-1796. -/
def busA (e : Env) (w : Ros) (s : S) : Res (Nat × S) := do
  let (a, chk, s) ← srcA e w s
  let bad ← badParity a
  if chk && !(w.CL == 2 || e.anyPrio || e.supprA) && bad then .ok (a, { s with r := { s.r with MC := s.r.MC ||| 0x80 } })
  else .ok (a, s)

/-! ## Adder -/

/-- A input, cpu2030.c 1799-1826. -/
def gateA (cf a : Nat) : Nat :=
  match cf with
  | 1 => a &&& 0xf
  | 2 => a &&& 0xf0
  | 3 => a &&& 0xff
  | 5 => (a >>> 4) &&& 0xf
  | 6 => (a <<< 4) &&& 0xf0
  | 7 => ((a >>> 4) &&& 0xf) ||| ((a <<< 4) &&& 0xf0)
  | _ => 0

/-- `cg_mask`, cpu2030.c 202. -/
def cgMask : List Nat := [0x00, 0x0f, 0xf0, 0xff]

/-- Whether the B input is complemented, cpu2030.c 1831. -/
def complement (cv s : Nat) : Bool := if bit cv 2 then bit s 0x80 else cv == 1

/-- B input, cpu2030.c 1830-1838. -/
def gateB (cg cv s b : Nat) : Res Nat :=
  match cgMask[cg]? with
  | none => .oob
  | some k =>
    let b := b &&& k
    if complement cv s then .ok (b ^^^ 0xff)
    else if cv = 3 then .ok (((b + 0x60) &&& 0xf0) ||| ((b + 0x6) &&& 0x0f))
    else .ok b

/-- Carry in, cpu2030.c 1841-1857. -/
def carryIn (cc s : Nat) : Nat :=
  match cc with
  | 1 => 1
  | 5 => 1
  | 6 => if bit s 0x10 then 1 else 0
  | _ => 0

/-- Sum or logical function and the carries out of each bit, cpu2030.c 1860-1882. -/
def combine (cc a b cin : Nat) : Nat × Nat :=
  match cc with
  | 2 => (a &&& b, 0)
  | 3 => (a ||| b, 0)
  | 7 => (a ^^^ b, 0)
  | _ =>
    let t := a + b + cin
    (t &&& 0xff, (a &&& b) ||| ((a ^^^ b) &&& (0xffff ^^^ t)))

/-- Decimal correction on the 16 bit Alu_out, cpu2030.c 1886-1889. -/
def decFix (out carries : Nat) : Nat :=
  let out := if bit carries 0x08 then out else (out + 65536 - 0x6) % 65536
  if bit carries 0x80 then out else (out + 65536 - 0x60) % 65536

/-- The adder, cpu2030.c 1799-1900: result with parity, and carries. -/
def alu (w : Ros) (sreg : Nat) (even : Bool) (a b : Nat) : Res (Nat × Nat) := do
  let bf ← gateB w.CG w.CV sreg b
  let (o, k) := combine w.CC (gateA w.CF a) bf (carryIn w.CC sreg)
  let o := if w.CV = 3 then decFix o k else o
  let p ← odd o
  .ok (o ||| (p ^^^ (if even then 0x100 else 0)), k)

/-! ## Destination -/

/-- Wrap latches when U or I is the destination, cpu2030.c 1970-1983, 1990-1998. -/
def wrapU (w : Ros) (tc : Bool) (k : Nat) (s : S) : S :=
  let v := w.CG == 0 && !bit ((if tc then 0 else 0x80) ^^^ k) 0x80
  let h := s.r.H &&& 0x06
  let s := if h = 0x04 then { s with l := { s.l with uWrapMpx := v } } else s
  if h = 0 then { s with l := { s.l with uWrap := v } } else s

def wrapI (w : Ros) (tc : Bool) (k : Nat) (s : S) : S :=
  let v := w.CG == 0 && !bit ((if tc then 0 else 0x80) ^^^ k) 0x80
  if s.r.H &&& 0x06 = 0 then { s with l := { s.l with iWrap := v } } else s

/-- Saving the result, cpu2030.c 1905-2000. -/
def dest (w : Ros) (tc : Bool) (o k : Nat) (s : S) : Res S :=
  match w.CD with
  | 1 => .ok { s with r := { s.r with TE := o } }
  | 2 => .ok { s with r := { s.r with JE := s.r.D &&& 0xff } }
  | 3 => .ok { s with r := { s.r with Q := o &&& 0xff } }
  | 4 => .ok { s with r := { s.r with TA := o &&& 0xff } }
  | 5 =>
    let s := if w.CM < 3 ∧ w.CU = 3 then
        if bit s.r.H 0x04 then { s with q := { s.q with selRest := true, WX := s.q.GWX }, c := { s.c with ch := s.c.sav } }
        else { s with q := { s.q with mpxRest := true, WX := s.q.FWX } }
      else s
    .ok { s with r := { s.r with H := o } }
  | 6 => .ok { s with r := { s.r with S := o &&& 0xff } }
  | 7 =>
    if (s.a.allowWrite && s.l.protectLoc) || s.l.memProt then .ok { s with l := { s.l with stgProtReq := true } }
    else do
      let bad ← badParity o
      .ok { s with r := { s.r with R := o, MC := if bad then s.r.MC ||| 0x02 else s.r.MC } }
  | 8 => .ok { s with r := { s.r with D := o } }
  | 9 => .ok { s with r := { s.r with L := o } }
  | 10 => .ok { s with r := { s.r with G := o } }
  | 11 => .ok { s with r := { s.r with T := o } }
  | 12 => .ok { s with r := { s.r with V := o } }
  | 13 => .ok (wrapU w tc k { s with r := { s.r with U := o } })
  | 14 => .ok { s with r := { s.r with J := o } }
  | 15 => .ok (wrapI w tc k { s with r := { s.r with I := o } })
  | _ => .ok s

/-- "Save carry from AC if requested", cpu2030.c 2003-2008. -/
def saveCarry (cc k s : Nat) : Nat :=
  if bit cc 4 ∧ cc ≠ 7 then (if bit k 0x80 then s ||| 0x10 else clr s 0x10) else s

/-- Carry latch and machine check bits, cpu2030.c 2003-2018. -/
def carrySave (w : Ros) (k : Nat) (s : S) : S :=
  let s := { s with r := { s.r with S := saveCarry w.CC k s.r.S } }
  let s := if s.evenParity || s.aluChk then { s with r := { s.r with MC := s.r.MC ||| 0x01 } } else s
  if s.q.WX = 0xba0 ∨ s.q.WX = 0xb60 then { s with r := { s.r with MC := s.r.MC ||| 0x1c } } else s

/-- The effects on registers of CS, cpu2030.c 2030-2364.  Channel tags and latches are left out. -/
def csFunc (e : Env) (w : Ros) (o : Nat) (s : S) : S :=
  let setS (v : Nat) : S := { s with r := { s.r with S := v } }
  let i := s.c.ch
  match w.CS with
  | 0x01 => setS (if o &&& 0x0f = 0 then clr s.r.S 0x04 ||| 0x04 else clr s.r.S 0x04)
  | 0x02 => setS (if o &&& 0xf0 = 0 then clr s.r.S 0x08 ||| 0x08 else clr s.r.S 0x08)
  | 0x03 =>
    let v := clr s.r.S 0x0c
    let v := if o &&& 0xf0 = 0 then v ||| 0x08 else v
    setS (if o &&& 0x0f = 0 then v ||| 0x04 else v)
  | 0x04 => setS (clr s.r.S 0x0c)
  | 0x05 => setS (if e.tReq then clr s.r.S 0x40 ||| 0x40 else clr s.r.S 0x40)
  | 0x06 => setS (clr s.r.S 0x80)
  | 0x07 => setS (s.r.S ||| 0x80)
  | 0x08 => setS (clr s.r.S 0x20)
  | 0x09 => setS (if o &&& 0xff = 0 then s.r.S else s.r.S ||| 0x20)
  | 0x0a => setS (clr s.r.S 0x02)
  | 0x0b => setS (s.r.S ||| 0x02)
  | 0x0c => setS (clr s.r.S 0x01)
  | 0x0d => setS (s.r.S ||| 0x01)
  | 0x0e =>
    let s := if bit w.CK 0x02 ∧ bit w.CK 0x01 then { s with r := { s.r with mask := 0xe1 &&& s.r.R } } else s
    if bit w.CK 0x08 ∧ bit w.CK 0x01 then { s with r := { s.r with XX := 0xe0 &&& s.r.S } } else s
  | 0x0f => if bit w.CK 0x08 then { s with r := { s.r with O := s.r.R } } else s
  | 0x16 => { s with c := { s.c with GC := upd s.c.GC i (s.c.GU i), GD := upd s.c.GD i (s.c.GV i) } }
  | 0x17 => { s with c := { s.c with GK := upd s.c.GK i (s.c.GR i) } }
  | 0x18 => { s with c := { s.c with GF := upd s.c.GF i (s.c.GR i ||| (s.c.GF i &&& 0x08)) } }
  | 0x19 => { s with c := { s.c with GG := upd s.c.GG i (s.c.GR i) } }
  | 0x1a => { s with c := { s.c with GU := upd s.c.GU i (s.c.GR i) } }
  | 0x1b => { s with c := { s.c with GV := upd s.c.GV i (s.c.GR i) } }
  | 0x1d => { s with c := { s.c with GR := upd s.c.GR i (s.c.GI i) } }
  | 0x1e =>
    match w.CK &&& 0xf with
    | 0 => { s with c := { s.c with GE := upd s.c.GE i (s.c.GE i ||| 0x20) } }
    | 1 => { s with c := { s.c with ch := w.PK } }
    | 3 => { s with c := { s.c with GF := upd s.c.GF i (clr (s.c.GF i) 0x08) } }
    | 5 => { s with c := { s.c with GE := upd s.c.GE i (s.c.GE i ||| 0x04) } }
    | 6 => { s with c := { s.c with GR := upd s.c.GR i 0x100 } }
    | 9 => { s with c := { s.c with GE := upd s.c.GE i 0, GF := upd s.c.GF i 0 } }
    | 0xf => { s with c := { s.c with GE := upd s.c.GE i (s.c.GE i ||| 0x02) } }
    | _ => s
  | 0x1f => if bit w.CK 0x07 then { s with c := { s.c with GO := upd s.c.GO i (s.c.GR i) } } else s
  | _ => s

/-- Parity of R at a write, and the status of the cycle, cpu2030.c 2399-2408. -/
def finish (w : Ros) (o k : Nat) (s : S) : Res S := do
  let bad ← (if w.CM = 0 ∨ w.CM = 2 then badParity s.r.R else .ok false)
  let s := if bad then { s with r := { s.r with MC := s.r.MC ||| 0x02 } } else s
  .ok { s with q := { s.q with stat := (if bit k 0x80 then 0x04 else 0) ||| (if bit k 0x40 then 0x02 else 0) ||| (if o &&& 0xff = 0 then 0x08 else 0) } }

/-- The ASCII and wait latches of a decimal microinstruction, cpu2030.c 1890-1898. -/
def decLatch (w : Ros) (s : S) : S :=
  if w.CV = 3 then
    let s := if w.CC = 7 then { s with r := { s.r with ascii := bit s.r.R 0x08 } } else s
    { s with r := { s.r with wait := w.CC == 3 } }
  else s

/-- One microinstruction, cpu2030.c 1040-2408. -/
def cycle (e : Env) (w : Ros) (s : S) : Res S := do
  let s ← memRead w s
  let s ← memCtl w s
  let s := ckFunc w (step e w s)
  let (b, s) ← busB e w s
  let (a, s) ← busA e w s
  let (o, k) ← alu w s.r.S s.evenParity a b
  let s := decLatch w s
  let s ← dest w (complement w.CV s.r.S) o k s
  finish w o k (csFunc e w o (carrySave w k s))

/-- A sequence of microinstructions with the inputs of each. -/
def run : List (Env × Ros) → S → Res S
  | [], s => .ok s
  | (e, w) :: l, s => do
    let s ← cycle e w s
    run l s

/-! ## Selector channel share cycles -/

/-- Flags of a selector channel used by its storage cycles. -/
structure Share where
  grFull : Bool
  cntNotZero : Bool
  cntZero : Bool
deriving Repr, DecidableEq

/-- The read half, cpu2030.c 767-808: takes the address, counts down, fetches for output.  16 bit GHY wraps around. -/
def shareRead (i : Nat) (s : S) (f : Share) : Res (S × Share) := do
  let mn := ((s.c.GU i &&& 0xff) <<< 8) ||| (s.c.GV i &&& 0xff)
  let s := { s with a := { s.a with M := s.c.GU i, N := s.c.GV i, MN := mn } }
  let ghz := (s.c.GD i + 65535) &&& 0xff
  let ghy := s.c.GC i &&& 0xff
  let ghy := if ghz = 0xff then (ghy + 65535) % 65536 else ghy
  let f := if ghz = 0 ∧ ghy = 0 then { f with cntNotZero := false } else f
  let s := if outOfRange s then { s with c := { s.c with GE := upd s.c.GE i (s.c.GE i ||| 0x20) } } else s
  let bm ← badParity s.a.M
  let bn ← badParity s.a.N
  let s := if bm || bn then { s with r := { s.r with MC := s.r.MC ||| 0x20 } } else s
  let pz ← odd ghz
  let py ← odd ghy
  let s := { s with c := { s.c with GC := upd s.c.GC i (s.c.GU i), GD := upd s.c.GD i (s.c.GV i), GV := upd s.c.GV i (ghz ||| pz), GU := upd s.c.GU i (ghy ||| py) } }
  let s ← (if f.cntZero = false ∧ bit (s.c.GG i) 1 ∧ f.grFull = false then do
      let v ← s.m.get s.a.MN
      .ok { s with c := { s.c with GR := upd s.c.GR i (v % 65536) } }
    else .ok s)
  let k ← s.m.getMP (0xe0 ||| (s.a.M >>> 3))
  .ok ({ s with r := { s.r with Q := (s.r.Q &&& 0xf0) ||| (k &&& 0xf) } }, f)

/-- "Check if input": `(GG[i] & 3) == 2 || (GG[i] & 5) == 4`. -/
def isInput (gg : Nat) : Bool := gg &&& 3 == 2 || gg &&& 5 == 4

/-- Storing the byte of an input command, cpu2030.c 835-847. -/
def shareStore (i : Nat) (s : S) : Res S := do
  let s ← (if bit (s.c.GK i) 0xf0 ∧ bit ((s.c.GK i >>> 4) ^^^ s.r.Q) 0xf then do
      let v ← s.m.get s.a.MN
      .ok { s with c := { s.c with GE := upd s.c.GE i (s.c.GE i ||| 0x10), GR := upd s.c.GR i (v % 65536) } }
    else .ok s)
  if bit (s.c.GF i) 0x10 then .ok s
  else do
    let m ← s.m.put s.a.MN (s.c.GR i)
    .ok { s with m := m }

/-- The write half, cpu2030.c 809-866: steps the address, stores for input.  The direction is that of the channel selected
by the microprogram (811). -/
def shareWrite (i : Nat) (s : S) (f : Share) : Res (S × Share) := do
  let back := s.c.GG s.c.ch == 0x10c
  let ghz := if back then (s.c.GD i + 65535) &&& 0xff else (s.c.GD i + 1) &&& 0xff
  let ghy := s.c.GC i &&& 0xff
  let ghy := if back then (if ghz = 0xff then (ghy + 65535) % 65536 else ghy) else (if ghz = 0 then ghy + 1 else ghy)
  let s := if !back && bit ghy 0x100 then { s with c := { s.c with GE := upd s.c.GE i (s.c.GE i ||| 0x20) } } else s
  let pz ← odd ghz
  let py ← odd ghy
  let s := { s with c := { s.c with GC := upd s.c.GC i (s.c.GU i), GD := upd s.c.GD i (s.c.GV i), GV := upd s.c.GV i (ghz ||| pz), GU := upd s.c.GU i (ghy ||| py) } }
  let inp := f.grFull && isInput (s.c.GG i)
  let s ← (if inp then shareStore i s else .ok s)
  let f := if inp then { f with grFull := false } else f
  let f := if f.cntZero = false ∧ bit (s.c.GG i) 1 ∧ f.grFull = false then { f with grFull := true } else f
  let f := if f.cntNotZero = false ∧ f.grFull = false then { f with cntZero := true } else f
  let bad ← badParity (s.c.GR i)
  .ok (if bad then { s with c := { s.c with GE := upd s.c.GE i (s.c.GE i ||| 0x08) } } else s, f)

end Verif.Cpu30
