import Verif.Ctl2841.Idle

/-!
# The 2841: initial selection

From the address and select out of the channel up to the address the control unit puts on bus in,
whatever the order in which the channel's cycles and the microinstructions come.
-/

namespace Verif.Ctl2841
open Verif.Ctl2844 hiding Regs Base Pos Calm Sel Stage LStage bus_select bus_adrIn Start

/-! ## The channel's cycles -/

/-- What the channel's cycles leave alone during selection. -/
structure Regs where
  addr : T
  WX : T
  ST : B
  OP : B
  DW : B
  FT : B
  FC : B
  IG : B
  SC : B
  cur : Option (BitVec 3)
  disk : BitVec 3 → Option Dasd.S

def Ctx.regs (c : Ctx) : Regs :=
  ⟨c.addr, c.WX, c.ST, c.OP, c.DW, c.FT, c.FC, c.IG, c.SC, c.cur, c.disk⟩

/-- The interface side before and during selection. -/
structure Calm (c : Ctx) : Prop where
  request : c.request = false
  sta : c.sta_in = false
  srv : c.srv_in = false
  svc : c.svc_req = false
  er3 : bit c.ER 3 = false
  er7 : bit c.ER 7 = false
  opr : c.IG = 0x08#8 → c.opr_in = false

/-- The interface side while the channel selects address `a`. -/
structure Sel (a : B) (c : Ctx) : Prop extends Calm c where
  sel : c.selected = true
  adr : c.addressed = true
  er1 : bit c.ER 1 = true
  out : c.bus_out = a
  cmd : up c.tags CMD_OUT = false

theorem adr_clr (t : T) : up (t &&& ~~~ADR_IN) ADR_OUT = up t ADR_OUT := by tags44
theorem sel_clr (t : T) : up (t &&& ~~~ADR_IN) SEL_OUT = up t SEL_OUT := by tags44
theorem adr_set (t : T) : up (t ||| ADR_IN) ADR_OUT = up t ADR_OUT := by tags44
theorem sel_set (t : T) : up (t ||| ADR_IN) SEL_OUT = up t SEL_OUT := by tags44

/-- A cycle of the channel before address in. -/
theorem bus_select {c : Ctx} (h : Calm c) (bo t b : T) (hg : c.IG = 0x08#8) (hsc : c.SC = 0#8)
    (ho : up t OPR_OUT = true) (ha : up t ADR_OUT = true)
    (hs : up t SEL_OUT = true) (hm : up t CMD_OUT = false) (hk : (bo &&& 0xf0#16) = c.addr) :
    ∃ c' t', dev bo ⟨c, t, b⟩ = ⟨c', t', b⟩ ∧ Calm c' ∧ c'.regs = c.regs ∧ c'.addressed = true ∧
      c'.selected = c.addressed ∧ bit c'.ER 1 = true ∧ c'.bus_out = bo.setWidth 8 ∧ up c'.tags CMD_OUT = false ∧
      up t' SEL_OUT = false ∧ up t' ADR_IN = false ∧ up t' OPR_IN = up t OPR_IN := by
  have hn := noReset ho
  have hopr := h.opr hg
  generalize he : dev bo ⟨c, t, b⟩ = o
  cases had : c.addressed <;> cases hp : parityOk bo <;> cases ht : c.tr_1 <;>
    bus41 he [hn, adr_clr, sel_clr, adr_set, sel_set, ha, hs, hk, hg, hsc, had, hp, bits08, h.sta, hopr, h.request, h.svc, h.srv, ht] <;> subst he
  all_goals
    refine ⟨_, _, rfl, ?_⟩
    refine ⟨⟨rfl, rfl, rfl, rfl, ?_, ?_, fun _ => rfl⟩, ?_, rfl, rfl, ?_, rfl, ?_, ?_, ?_, ?_⟩
    · simp [bit_putBit, bit_setBit, h.er3]
    · simp [bit_putBit, bit_setBit, h.er7]
    · simp [Ctx.regs, hg, hsc, hk]
    · simp [bit_putBit, bit_setBit]
    · simpa using hm
    · tags44
    · tags44
    · tags44

/-- A cycle of the channel once the microprogram has asked for address in. -/
theorem bus_adrIn {c : Ctx} {a : B} (h : Sel a c) (bo t b : T) (hg : c.IG = 0x01#8) (ho : up t OPR_OUT = true)
    (ha : up t ADR_OUT = true) (hs : up t SEL_OUT = true) (hm : up t CMD_OUT = false) (hk : (bo &&& 0xf0#16) = c.addr) :
    ∃ c' t', dev bo ⟨c, t, b⟩ = ⟨c', t', withParity c.DW⟩ ∧ Sel (bo.setWidth 8) c' ∧ c'.regs = c.regs ∧ c'.opr_in = true ∧
      up t' SEL_OUT = false ∧ up t' ADR_IN = true ∧ up t' OPR_IN = true ∧ up t' STA_IN = false := by
  have hn := noReset ho
  generalize he : dev bo ⟨c, t, b⟩ = o
  cases hp : parityOk bo <;>
  bus41 he [hn, adr_clr, sel_clr, adr_set, sel_set, ha, hs, hk, hg, hp, bits01, h.sta, h.request, h.svc, h.srv] <;> subst he
  all_goals
    refine ⟨_, _, rfl, ?_⟩
    refine ⟨⟨⟨rfl, rfl, rfl, rfl, ?_, ?_, ?_⟩, rfl, rfl, ?_, rfl, ?_⟩, ?_, rfl, ?_, ?_, ?_, ?_⟩
    · simp [bit_putBit, bit_setBit, h.er3]
    · simp [bit_putBit, bit_setBit, h.er7]
    · exact fun h => absurd h (by show ¬ (0x01#8 : B) = 0x08#8; decide)
    · simp [bit_putBit, bit_setBit]
    · simpa using hm
    · simp [Ctx.regs, hg, hk]
    · tags44
    · tags44
    · tags44
    · tags44

end Verif.Ctl2841
