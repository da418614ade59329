import Verif.Sel50.QuickBusy
import Verif.Ctl2841.Latch

/-!
# A 2841 on a selector channel of the 2050 (C156)

The channel of `Sel50/Model.lean` and the control of `Ctl2841/Model.lean` on the same lines, in the
order of `process` (/repo/src/panel/panel.c 467-487): `step_cpu` carries out two machine cycles
(`step_2050`, /repo/src/model2050/cpu2050.c 6291-6296), then `step_disk` is called twice, a microinstruction of
the control each.
-/

namespace Verif.Sel50
open Verif.Bus (Tags)
open Verif.Ctl2844 (Out)

/-- `TAGS[ch]` as the word of bits it is, /repo/src/device/device.h 80-91. -/
def enc (t : Tags) : BitVec 16 :=
  (if t.sel then 0x8000#16 else 0#16) ||| (if t.adr then 0x4000#16 else 0#16) ||| (if t.cmd then 0x2000#16 else 0#16) |||
  (if t.srv then 0x1000#16 else 0#16) ||| (if t.sup then 0x0800#16 else 0#16) ||| (if t.hld then 0x0400#16 else 0#16) |||
  (if t.opr then 0x0200#16 else 0#16)

/-- The lines of such a word. -/
def dec (t : BitVec 16) : Tags :=
  { sel := t.getLsbD 15, adr := t.getLsbD 14, cmd := t.getLsbD 13, srv := t.getLsbD 12, sup := t.getLsbD 11,
    hld := t.getLsbD 10, opr := t.getLsbD 9, oprIn := t.getLsbD 7, adrIn := t.getLsbD 6, staIn := t.getLsbD 5,
    srvIn := t.getLsbD 4, reqIn := t.getLsbD 3 }

/-- The channel with the processor, and the control with its lines. -/
structure Both where
  x : X
  l : Ctl2841.Line

/-- What `model2841_dev` makes of the lines: cpu2050.c 5274-5278. -/
def Both.call (z : Both) : Ctl2841.IF :=
  Ctl2841.dev (z.x.c.busOut.setWidth 16 ||| (if z.x.c.busPar then 0x100#16 else 0#16))
    ⟨z.l.c, z.l.tin ||| enc z.x.c.tags, z.l.bin⟩

/-- A machine cycle: the channel, number 0 of the three, with the 2841 as its only control.  Processor
and other channels do nothing to the signals this channel looks at. -/
def Both.cycle (z : Both) : Both :=
  ⟨turn 0 z.x ⟨⟨dec z.call.tags, z.call.bin.setWidth 8, z.call.bin.getLsbD 8⟩, id⟩,
   ⟨z.call.c, z.call.tags &&& Ctl2844.inTags, z.call.bin⟩⟩

/-- A microinstruction of the control. -/
def Both.micro (z : Both) : Out Both :=
  (Ctl2841.step Ctl2841.ros z.l.c).bind fun c => .ok { z with l := { z.l with c := c } }

/-- A pass of `process`. -/
def Both.pass (z : Both) : Out Both := z.cycle.cycle.micro.bind Both.micro

def Both.passes (z : Both) : Nat → Out Both
  | 0 => .ok z
  | n + 1 => z.pass.bind fun z => z.passes n

theorem passes_add (z : Both) (m n : Nat) : z.passes (m + n) = (z.passes m).bind fun z => z.passes n := by
  induction m generalizing z with
  | zero => rw [Nat.zero_add]; rfl
  | succ m ih =>
    rw [show m + 1 + n = (m + n) + 1 by omega]
    show (Both.pass z).bind _ = ((Both.pass z).bind _).bind _
    cases Both.pass z with
    | ok y => exact ih y
    | oob => rfl
    | null => rfl
    | drive => rfl
    | undef => rfl

/-! ### Waiting for ever -/

/-- The channel shows a command with address out still up and waits for status in; the control takes
the command for the address of another control unit. -/
structure Stuck (k : B) (z : Both) : Prop where
  pos : z.x.c.chpos = 0x20
  clk : z.x.c.chclk = 3
  latch : z.x.g.instLatch = true
  ch : z.x.g.ch = 0
  ctl : z.x.g.chctl = 1
  c2 : z.x.c.c2 = false
  tags : z.x.c.tags = { sel := true, adr := true, hld := true, opr := true }
  reg : (z.x.c.bReg >>> 24).setWidth 8 = k
  bus : z.x.c.busOut = k
  par : z.x.c.busPar = oddPar k
  other : (k.setWidth 16 &&& 0xf0#16) ≠ z.l.c.addr
  wx : z.l.c.WX = 0x548#16
  ig : z.l.c.IG = 0x04#8
  addressed : z.l.c.addressed = false
  selected : z.l.c.selected = false
  request : z.l.c.request = false
  opr : z.l.c.opr_in = true
  er7 : Ctl2844.bit z.l.c.ER 7 = false
  seen : z.l.c.tags = 0xc680#16
  fc : z.l.c.FC &&& 0x04#8 = 0#8
  quiet : Ctl2844.Quiet z.l.c.disk
  tin : z.l.tin = 0x80#16

theorem bus_nibble (k : B) (p : Bool) :
    ((k.setWidth 16 ||| (if p then 0x100#16 else 0#16)) &&& 0xf0#16) = k.setWidth 16 &&& 0xf0#16 := by
  cases p <;> revert k <;> decide +kernel

theorem bits04 : Ctl2844.bit 0x04#8 0 = false ∧ Ctl2844.bit 0x04#8 1 = false ∧ Ctl2844.bit 0x04#8 2 = false ∧
    Ctl2844.bit 0x04#8 3 = false ∧ Ctl2844.bit 0x04#8 4 = false ∧ Ctl2844.bit 0x04#8 5 = true ∧
    Ctl2844.bit 0x04#8 6 = false ∧ Ctl2844.bit 0x04#8 7 = false := by decide

theorem stuck_call {k : B} {z : Both} (h : Stuck k z) :
    z.call.tags = 0xc680#16 ∧ z.call.c.addr = z.l.c.addr ∧ z.call.c.WX = 0x548#16 ∧ z.call.c.IG = 0x04#8 ∧
    z.call.c.addressed = false ∧ z.call.c.selected = false ∧ z.call.c.request = false ∧ z.call.c.opr_in = true ∧
    Ctl2844.bit z.call.c.ER 7 = false ∧ z.call.c.tags = 0xc680#16 ∧ z.call.c.FC = z.l.c.FC ∧ z.call.c.disk = z.l.c.disk := by
  unfold Both.call
  have ht : z.l.tin ||| enc z.x.c.tags = 0xc680#16 := by rw [h.tin, h.tags]; decide
  rw [ht, h.bus]
  generalize hb : (k.setWidth 16 ||| (if z.x.c.busPar then 0x100#16 else 0#16)) = bo
  have hk : ¬ (bo &&& 0xf0#16) = z.l.c.addr := by rw [← hb, bus_nibble]; exact h.other
  clear hb ht
  generalize he : Ctl2841.dev bo ⟨z.l.c, 0xc680#16, z.l.bin⟩ = o
  have a0 : ¬ (0xc680#16 &&& (Ctl2844.OPR_OUT ||| Ctl2844.SUP_OUT) = 0#16) := by decide
  have a1 : (0xc680#16 &&& ~~~Ctl2844.ADR_IN) = 0xc680#16 := by decide
  have a2 : Ctl2844.up 0xc680#16 Ctl2844.ADR_OUT = true := by decide
  have a3 : Ctl2844.up 0xc680#16 Ctl2844.SEL_OUT = true := by decide
  have a4 : (0xc680#16 ||| Ctl2844.OPR_IN) = 0xc680#16 := by decide
  have a5 : Ctl2844.up 0xc680#16 Ctl2844.STA_IN = false := by decide
  cases hp : Ctl2844.parityOk bo <;>
  simp [Ctl2841.dev, Ctl2841.ifAsk, Ctl2841.ifAdrIn, Ctl2841.ifSta, Ctl2841.ifSel, Ctl2841.ifAddr, Ctl2841.ifDrop, Ctl2841.ifOprIn,
    Ctl2841.ifPoll, Ctl2841.ifReq, Ctl2841.ifEnd, Ctl2841.ifData, h.ig, hk, hp, h.addressed, h.request, h.opr, bits04, a0, a1, a2, a3,
    a4, a5] at he <;> subst he
  · exact ⟨rfl, rfl, h.wx, rfl, rfl, rfl, rfl, rfl, by simp [Ctl2844.bit_setBit, h.er7], rfl, rfl, rfl⟩
  · exact ⟨rfl, rfl, h.wx, rfl, rfl, rfl, rfl, rfl, h.er7, rfl, rfl, rfl⟩

theorem stuck_cycle {k : B} {z : Both} (h : Stuck k z) : Stuck k z.cycle := by
  obtain ⟨t, e1, e2, e3, e4, e5, e6, e7, e8, e9, e10, e11⟩ := stuck_call h
  unfold Both.cycle
  rw [t]
  have e := turn_sel (i := 0) (m := ⟨⟨dec 0xc680#16, z.call.bin.setWidth 8, z.call.bin.getLsbD 8⟩, id⟩) h.pos
    (by show (dec 0xc680#16).srvIn = false; decide)
  rw [e]
  have i1 : inst 0 z.x.g = true := by unfold inst; rw [h.latch, h.ch]; rfl
  have d1 : dec 0xc680#16 = { sel := true, adr := true, hld := true, opr := true, oprIn := true } := by decide
  generalize hy : fin _ _ _ = y
  unfold posSel at hy
  rw [if_pos (by exact h.pos)] at hy
  simp [h.clk, sel3, h.c2, i1, h.ctl, d1, sel3c, fin, dropSrv, dropCmd, toBus, h.tags] at hy
  subst hy
  exact ⟨h.pos, rfl, h.latch, h.ch, h.ctl, rfl, rfl, h.reg, h.reg, by rw [← h.reg], by rw [e1]; exact h.other, e2, e3, e4, e5, e6, e7, e8, e9,
    by rw [e10]; exact h.fc, by rw [e11]; exact h.quiet, by show (0xc680#16 &&& Ctl2844.inTags) = 0x80#16; decide⟩

theorem w548 : Ctl2841.ros 0x548 = ⟨0, 2, 32, 8, 10, 72, 3, 0, 0, 15, 0⟩ := by decide +kernel

theorem stuck_micro {k : B} {z : Both} (h : Stuck k z) : ∃ z', z.micro = .ok z' ∧ Stuck k z' := by
  unfold Both.micro
  rw [Ctl2841.step_calm z.l.c 0x548 (by decide) h.wx h.fc h.quiet, w548]
  generalize he : Ctl2841.exec _ _ = o
  have a1 : Ctl2844.up 0xc680#16 Ctl2844.CMD_OUT = false := by decide
  have a2 : Ctl2844.up 0xc680#16 Ctl2844.SRV_OUT = false := by decide
  simp [Ctl2841.exec, Ctl2841.aBus, Ctl2841.dest, Ctl2841.compute, Ctl2841.flags, Ctl2841.keepCarry, Ctl2841.next, Ctl2841.nextHi,
    Ctl2841.x6, Ctl2841.x7, Ctl2841.bBus, Ctl2841.alu, Ctl2841.carryOut, Ctl2841.carryIn, h.wx, h.seen, h.er7, a1, a2] at he
  subst he
  exact ⟨_, rfl, h.pos, h.clk, h.latch, h.ch, h.ctl, h.c2, h.tags, h.reg, h.bus, h.par, h.other, rfl, h.ig, h.addressed, h.selected,
    h.request, h.opr, h.er7, rfl, h.fc, h.quiet.turn, h.tin⟩

theorem stuck_passes {k : B} (n : Nat) {z : Both} (h : Stuck k z) : ∃ z', z.passes n = .ok z' ∧ Stuck k z' := by
  induction n generalizing z with
  | zero => exact ⟨z, rfl, h⟩
  | succ n ih =>
    obtain ⟨a, ha, ka⟩ := stuck_micro (stuck_cycle (stuck_cycle h))
    obtain ⟨b, hb, kb⟩ := stuck_micro ka
    obtain ⟨c, hc, kc⟩ := ih kb
    refine ⟨c, ?_, kc⟩
    show (Both.pass z).bind _ = _
    unfold Both.pass
    rw [ha]
    show (Both.micro a).bind _ = _
    rw [hb]
    exact hc

/-! ### From the instruction to the wait -/

/-- `Stuck` as a computation. -/
def stuck (k : B) (z : Both) : Bool :=
  z.x.c.chpos == 0x20 && z.x.c.chclk == 3 && z.x.g.instLatch && z.x.g.ch == 0 && z.x.g.chctl == 1 && !z.x.c.c2 &&
  z.x.c.tags == { sel := true, adr := true, hld := true, opr := true } && (z.x.c.bReg >>> 24).setWidth 8 == k &&
  z.x.c.busOut == k && z.x.c.busPar == oddPar k && (k.setWidth 16 &&& 0xf0#16) != z.l.c.addr && z.l.c.WX == 0x548#16 &&
  z.l.c.IG == 0x04#8 && !z.l.c.addressed && !z.l.c.selected && !z.l.c.request && z.l.c.opr_in && !Ctl2844.bit z.l.c.ER 7 &&
  z.l.c.tags == 0xc680#16 && z.l.c.FC &&& 0x04#8 == 0#8 && z.l.tin == 0x80#16 &&
  [0#3, 1#3, 2#3, 3#3, 4#3, 5#3, 6#3, 7#3].all fun i => (z.l.c.disk i).all fun d => !d.attn

theorem stuck_of {k : B} {z : Both} (h : stuck k z = true) : Stuck k z := by
  simp only [stuck, Bool.and_eq_true, beq_iff_eq, bne_iff_ne, Bool.not_eq_true', List.all_cons, List.all_nil] at h
  obtain ⟨⟨⟨⟨⟨⟨⟨⟨⟨⟨⟨⟨⟨⟨⟨⟨⟨⟨⟨⟨⟨h1, h2⟩, h3⟩, h4⟩, h5⟩, h6⟩, h7⟩, h8⟩, h9⟩, h10⟩, h11⟩, h12⟩, h13⟩, h14⟩, h15⟩, h16⟩, h17⟩, h18⟩, h19⟩, h20⟩, h21⟩, q⟩ := h
  refine ⟨h1, h2, h3, h4, h5, h6, h7, h8, h9, h10, h11, h12, h13, h14, h15, h16, h17, h18, h19, h20, ?_, h21⟩
  intro i d hd
  obtain ⟨q0, q1, q2, q3, q4, q5, q6, q7, -⟩ := q
  rcases Ctl2844.bv3_cases i with e | e | e | e | e | e | e | e <;> subst e <;> simp_all

/-- A 2841 at address 90 at rest, with a 2311 as its drive 0. -/
def atRest : Ctl2841.Ctx :=
  { Ctl2841.init 0x90#16 with
    WX := 0x5b6#16, IG := 0x08#8, ST := 0x01#8,
    disk := Ctl2844.oneDrive (Dasd.fresh ⟨"2311", 203, 10, 3717, 0x11, 36, 36, 36, 6, 13⟩) }

theorem atRest_idle : Ctl2841.Idle atRest := by
  refine ⟨.inl rfl, rfl, rfl, rfl, rfl, rfl, rfl, rfl, rfl, rfl, rfl, rfl, rfl, rfl, ?_, rfl⟩
  intro i d hd
  simp only [atRest, Ctl2844.oneDrive] at hd
  split at hd
  · obtain rfl := Option.some.inj hd; rfl
  · exact absurd hd (by simp)

/-- The channel selects unit 90 for a START I/O whose first CCW has the command `k`. -/
def start41 (k : B) : Both := ⟨startSel 0 0x90 k, ⟨atRest, 0#16, 0#16⟩⟩

/-- The commands of the 2841 for a single track, without sense: control, write, read and search. -/
def commands : List B :=
  [0x03, 0x07, 0x0b, 0x1b, 0x13, 0x1f, 0x0f, 0x01, 0x05, 0x0d, 0x1d, 0x19, 0x15, 0x11, 0x02, 0x06, 0x0e, 0x1e, 0x12, 0x1a, 0x16,
   0x31, 0x51, 0x71, 0x29, 0x49, 0x69, 0x39]

set_option maxRecDepth 100000 in
theorem reach : (commands.all fun k => match (start41 k).passes 19 with | Out.ok z => stuck k z | _ => false) = true := by
  decide +kernel

/-- **C156** is violated: START I/O with any of these commands for a 2841 at rest never ends.  From the
nineteenth pass on the instruction is in progress and the channel waits for the status of the control. -/
theorem C156_violated_never_ends {k : B} (hk : k ∈ commands) (n : Nat) :
    ∃ z, (start41 k).passes (19 + n) = .ok z ∧ z.x.g.instLatch = true ∧ z.x.c.chpos = 0x20 ∧ z.x.c.chclk = 3 ∧
      z.x.c.tags.adr = true ∧ z.x.c.busOut = k := by
  have h := List.all_eq_true.mp reach k hk
  split at h
  · rename_i z hz
    obtain ⟨y, hy, ky⟩ := stuck_passes n (stuck_of h)
    exact ⟨y, by rw [passes_add, hz]; exact hy, ky.latch, ky.pos, ky.clk, by rw [ky.tags], ky.bus⟩
  · exact absurd h (by simp)

/-- The hypotheses of the specification hold: a 2841 at rest, and a channel which starts to select it. -/
theorem C156_start (k : B) : Ctl2841.Idle (start41 k).l.c ∧ Job.sio.Begin 0 0x90 k (start41 k).x :=
  ⟨atRest_idle, startSel_begin 0 0x90 k⟩

end Verif.Sel50
