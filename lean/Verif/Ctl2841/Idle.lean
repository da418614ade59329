import Verif.Ctl2841.Words

/-!
# The 2841 at rest

The word at which the microprogram waits for the channel, and what the control unit does to the
interface while it does.
-/

namespace Verif.Ctl2841
open Verif.Ctl2844

/-- The control unit, the in tags it holds up and the bus in. -/
structure Line where
  c : Ctx
  tin : T
  bin : T

/-- One event.  The channel puts its tags next to the in tags of the last cycle and calls
`model2841_dev` (the `test_chan` of `/repo/src/model2841/test`, and the channels of the
processors, do the same). -/
def Line.next (s : Line) : Ev → Out Line
  | .micro => (step ros s.c).bind fun c => .ok { s with c := c }
  | .bus out bo =>
    .ok ⟨(dev bo ⟨s.c, s.tin ||| (out &&& outTags), s.bin⟩).c,
      (dev bo ⟨s.c, s.tin ||| (out &&& outTags), s.bin⟩).tags &&& inTags,
      (dev bo ⟨s.c, s.tin ||| (out &&& outTags), s.bin⟩).bin⟩

/-- A schedule. -/
def Line.run (s : Line) : List Ev → Out Line
  | [] => .ok s
  | e :: es => (s.next e).bind fun s => s.run es

theorem Line.run_append (s : Line) (xs ys : List Ev) : s.run (xs ++ ys) = (s.run xs).bind fun s => s.run ys := by
  induction xs generalizing s with
  | nil => rfl
  | cons x xs ih =>
    show (s.next x).bind (fun s => s.run (xs ++ ys)) = ((s.next x).bind fun s => s.run xs).bind fun s => s.run ys
    cases s.next x with
    | ok s' => exact ih s'
    | null => rfl
    | oob => rfl
    | drive => rfl
    | undef => rfl

/-- The microinstruction lemmas: `exec` of a word known by its fields. -/
macro "run41" h:ident : tactic =>
  `(tactic| simp [exec, aBus, dest, compute, flags, keepCarry, next, nextHi, x6, x7, bBus, alu, carryOut, carryIn] at $h:ident)

/-- Evaluation of a bus cycle. -/
macro "bus41" h:ident "[" ls:Lean.Parser.Tactic.simpLemma,* "]" : tactic =>
  `(tactic| simp [dev, ifAsk, ifAdrIn, ifSta, ifSel, ifAddr, ifDrop, ifOprIn, ifPoll, ifReq, ifEnd, ifData, data1, data2, data3,
      $ls,*] at $h:ident)

/-- The control unit waits for the channel: nothing in progress, no request, no drive asking for
attention. -/
structure Idle (c : Ctx) : Prop where
  loop : c.WX = 0x5b6#16 ∨ c.WX = 0x5bb#16
  st0 : bit c.ST 0 = false
  st2 : bit c.ST 2 = false
  ig : c.IG = 0x08#8
  request : c.request = false
  opr : c.opr_in = false
  sta : c.sta_in = false
  svc : c.svc_req = false
  fc : c.FC = 0#8
  srv : c.srv_in = false
  er3 : bit c.ER 3 = false
  er7 : bit c.ER 7 = false
  st7 : bit c.ST 7 = true
  ft : c.FT = 0#8
  quiet : Quiet c.disk
  sc : c.SC = 0#8

theorem Idle.step_eq {c : Ctx} (h : Idle c) (n : Nat) (hn : n < 4096) (hw : c.WX = BitVec.ofNat 16 n) :
    step ros c = exec (ros n) { c with SC := 0#8, disk := turn c.disk } :=
  step_calm c n hn hw (by rw [h.fc]; rfl) h.quiet

/-- A microinstruction while the channel has not selected the control unit: it goes on waiting. -/
theorem Idle.micro {c : Ctx} (h : Idle c) (hs : c.selected = false) :
    ∃ c', step ros c = .ok c' ∧ Idle c' ∧ c'.selected = false ∧ c'.addressed = c.addressed ∧ c'.addr = c.addr
      ∧ c'.disk = turn c.disk ∧ c'.ER = c.ER := by
  rcases h.loop with hw | hw
  · rw [h.step_eq 0x5b6 (by decide) hw, w5b6]
    generalize he : exec _ _ = o
    run41 he
    simp [hw, hs] at he
    subst he
    exact ⟨_, rfl, ⟨.inl rfl, h.st0, h.st2, h.ig, h.request, h.opr, h.sta, h.svc, h.fc, rfl, h.er3, h.er7, h.st7, h.ft, h.quiet.turn, rfl⟩,
      (by first | exact hs | rfl), rfl, rfl, rfl, rfl⟩
  · rw [h.step_eq 0x5bb (by decide) hw, w5bb]
    generalize he : exec _ _ = o
    run41 he
    simp [hw, hs] at he
    subst he
    exact ⟨_, rfl, ⟨.inl rfl, h.st0, h.st2, h.ig, h.request, h.opr, h.sta, h.svc, h.fc, rfl, h.er3, h.er7, h.st7, h.ft, h.quiet.turn, rfl⟩,
      (by first | exact hs | rfl), rfl, rfl, rfl, rfl⟩

theorem bits00 (i : Nat) : bit 0#8 i = false := by unfold bit; simp

/-- Nothing in progress on the interface. -/
structure Still (c : Ctx) : Prop where
  ig : c.IG = 0#8 ∨ c.IG = 0x08#8
  request : c.request = false
  opr : c.opr_in = false
  sta : c.sta_in = false
  addressed : c.addressed = false
  er3 : bit c.ER 3 = false
  er7 : bit c.ER 7 = false
  sc : c.SC = 0#8

theorem Idle.still {c : Ctx} (h : Idle c) (had : c.addressed = false) : Still c :=
  ⟨.inr h.ig, h.request, h.opr, h.sta, had, h.er3, h.er7, h.sc⟩

/-- A cycle with the address out down, or with an address of another control unit: all that
happens to the lines is that address in goes down. -/
theorem Still.pass {c : Ctx} (h : Still c) (bo t b : T) (ho : up t OPR_OUT = true)
    (ha : up t ADR_OUT = true → (bo &&& 0xf0#16) ≠ c.addr) :
    ∃ er, dev bo ⟨c, t, b⟩ =
      ⟨{ c with bus_out := bo.setWidth 8, tags := t, selected := false, addressed := false, ER := er }, t &&& ~~~ADR_IN, b⟩ ∧
      bit er 3 = false ∧ bit er 7 = false := by
  have hn := noReset ho
  have hz : up (t &&& ~~~ADR_IN) ADR_OUT = up t ADR_OUT := by
    simp only [up_adr]
    simp [ADR_IN]
  generalize he : dev bo ⟨c, t, b⟩ = o
  rcases h.ig with hg | hg
  · cases hat : up t ADR_OUT with
    | true =>
      have ha := ha hat
      cases hp : parityOk bo <;>
      bus41 he [hn, hz, hat, h.addressed, ha, hp, hg, bits00, h.sta, h.opr, h.request, h.sc] <;>
      subst he
      · exact ⟨setBit c.ER 2, by simp [hg, h.sta, h.opr, h.request, h.sc], by simp [bit_setBit, h.er3], by simp [bit_setBit, h.er7]⟩
      · exact ⟨c.ER, by simp [hg, h.sta, h.opr, h.request, h.sc], h.er3, h.er7⟩
    | false =>
      bus41 he [hn, hz, hat, h.addressed, hg, bits00, h.sta, h.opr, h.request, h.sc]
      subst he
      exact ⟨clrBit c.ER 1, by simp [hg, h.sta, h.opr, h.request, h.sc], by simp [bit_clrBit, h.er3], by simp [bit_clrBit, h.er7]⟩
  · cases hat : up t ADR_OUT with
    | true =>
      have ha := ha hat
      cases hp : parityOk bo <;>
      bus41 he [hn, hz, hat, h.addressed, ha, hp, hg, bits08, h.sta, h.opr, h.request, h.sc] <;>
      subst he
      · exact ⟨setBit c.ER 2, by simp [hg, h.sta, h.opr, h.request, h.sc], by simp [bit_setBit, h.er3], by simp [bit_setBit, h.er7]⟩
      · exact ⟨c.ER, by simp [hg, h.sta, h.opr, h.request, h.sc], h.er3, h.er7⟩
    | false =>
      bus41 he [hn, hz, hat, h.addressed, hg, bits08, h.sta, h.opr, h.request, h.sc]
      subst he
      exact ⟨clrBit c.ER 1, by simp [hg, h.sta, h.opr, h.request, h.sc], by simp [bit_clrBit, h.er3], by simp [bit_clrBit, h.er7]⟩

/-- A cycle which is not for it leaves an idle control unit idle. -/
theorem Idle.pass {c : Ctx} (h : Idle c) (bo t b : T) (ho : up t OPR_OUT = true)
    (had : c.addressed = false) (ha : up t ADR_OUT = true → (bo &&& 0xf0#16) ≠ c.addr) :
    ∃ c', dev bo ⟨c, t, b⟩ = ⟨c', t &&& ~~~ADR_IN, b⟩ ∧ Idle c' ∧ c'.selected = false ∧ c'.addressed = false ∧ c'.disk = c.disk
      ∧ c'.addr = c.addr := by
  obtain ⟨er, h1, h3, h7⟩ := (h.still had).pass bo t b ho ha
  exact ⟨_, h1, ⟨h.loop, h.st0, h.st2, h.ig, h.request, h.opr, h.sta, h.svc, h.fc, h.srv, h3, h7, h.st7, h.ft, h.quiet, h.sc⟩,
    rfl, rfl, rfl, rfl⟩

end Verif.Ctl2841
