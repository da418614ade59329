import Verif.Ctl2844.Idle

/-!
# The 2844 and the channel interface: schedules

The control unit and the channel run side by side: the channel polls the interface, the
microprogram runs, in any order.
-/

namespace Verif.Ctl2844

/-- The control unit, the in tags it holds up and the bus in. -/
structure Line where
  c : Ctx
  tin : T
  bin : T

/-- One of two things happens: a microinstruction, or the channel runs a cycle with its out
tags and bus out. -/
inductive Ev where
  | micro
  | bus (out bo : T)

/-- The tags the channel drives, and those the control units drive, device.h lines 41-57. -/
def outTags : T := 0xff00#16
def inTags : T := 0x00ff#16

/-- One event.  The channel puts its tags next to the in tags of the last cycle and calls
`model2844_dev` (the `test_chan` of `/repo/src/model2844/test`, and the channels of the
processors, do the same). -/
def Line.next (s : Line) : Ev → Out Line
  | .micro => (step ros s.c).bind fun c => .ok { s with c := c }
  | .bus out bo =>
    .ok ⟨(dev bo ⟨s.c, s.tin ||| (out &&& outTags), s.bin⟩).c,
      (dev bo ⟨s.c, s.tin ||| (out &&& outTags), s.bin⟩).tags &&& inTags,
      (dev bo ⟨s.c, s.tin ||| (out &&& outTags), s.bin⟩).bin⟩

/-- A schedule. -/
def Line.run (s : Line) : List Ev → Out Line
  | [] => .ok s
  | e :: es => (s.next e).bind fun s => s.run es

theorem Line.run_append (s : Line) (xs ys : List Ev) : s.run (xs ++ ys) = (s.run xs).bind fun s => s.run ys := by
  induction xs generalizing s with
  | nil => rfl
  | cons x xs ih =>
    show (s.next x).bind (fun s => s.run (xs ++ ys)) = ((s.next x).bind fun s => s.run xs).bind fun s => s.run ys
    cases s.next x with
    | ok s' => exact ih s'
    | null => rfl
    | oob => rfl
    | drive => rfl
    | undef => rfl

/-- Evaluation of a bus cycle. -/
macro "bus44" h:ident "[" ls:Lean.Parser.Tactic.simpLemma,* "]" : tactic =>
  `(tactic| simp [dev, ifAddr, ifDrop, ifSta, ifSel, ifAdrIn, ifStaIn, ifOprIn, ifReq, ifPoll, ifEnd, ifData, $ls,*] at $h:ident)

theorem bits08 : bit 0x08#8 0 = false ∧ bit 0x08#8 1 = false ∧ bit 0x08#8 2 = false ∧ bit 0x08#8 3 = false
    ∧ bit 0x08#8 4 = true ∧ bit 0x08#8 5 = false ∧ bit 0x08#8 6 = false ∧ bit 0x08#8 7 = false := by decide

theorem bits01 : bit 0x01#8 0 = false ∧ bit 0x01#8 1 = false ∧ bit 0x01#8 2 = false ∧ bit 0x01#8 3 = false
    ∧ bit 0x01#8 4 = false ∧ bit 0x01#8 5 = false ∧ bit 0x01#8 6 = false ∧ bit 0x01#8 7 = true := by decide

/-- The channel is operational. -/
theorem noReset {t : T} (h : up t OPR_OUT = true) : (t &&& (OPR_OUT ||| SUP_OUT) = 0#16) = False := by
  simp only [up, OPR_OUT, SUP_OUT, ne_eq, eq_iff_iff, iff_false] at h ⊢
  replace h := of_decide_eq_true h
  intro h'
  apply h
  have : (0x0200#16 : T) = (0x0200#16 ||| 0x0800#16) &&& 0x0200#16 := by decide
  rw [this, ← BitVec.and_assoc, h']
  simp

/-- A cycle with the address out down (or an address not taken) passes an idle control unit by, unless it still
holds `addressed` from an earlier selection. -/
theorem Idle.pass {c : Ctx} (h : Idle c) (bo t b : T) (ho : up t OPR_OUT = true)
    (ha : (up t ADR_OUT = true ∧ takes c bo = false) ∨ (up t ADR_OUT = false ∧ c.addressed = false)) :
    ∃ c', dev bo ⟨c, t, b⟩ = ⟨c', t, b⟩ ∧ Idle c' ∧ c'.selected = false ∧ c'.addressed = false ∧ c'.disk = c.disk
      ∧ c'.addr = c.addr := by
  have hn := noReset ho
  generalize he : dev bo ⟨c, t, b⟩ = o
  rcases ha with ⟨ha, htk⟩ | ⟨ha, had⟩
  · obtain ⟨h1, h2⟩ := Bool.or_eq_false_iff.1 htk
    replace h1 := of_decide_eq_false h1
    bus44 he [hn, ha, takes, h1, h2, h.ig, bits08, h.sta, h.opr, h.request, h.sc]
    subst he
    exact ⟨_, rfl, ⟨h.loop, h.st0, h.st2, rfl, rfl, rfl, rfl, h.srv, h.svc, h.fc, h.ft, h.er3, h.ur, h.quiet, rfl⟩,
      rfl, rfl, rfl, rfl⟩
  · bus44 he [hn, ha, had, h.ig, bits08, h.sta, h.opr, h.request, h.sc]
    subst he
    exact ⟨_, rfl, ⟨h.loop, h.st0, h.st2, rfl, rfl, rfl, rfl, h.srv, h.svc, h.fc, h.ft,
      by simp [bit_clrBit, h.er3], h.ur, h.quiet, rfl⟩, rfl, rfl, rfl, rfl⟩

end Verif.Ctl2844
