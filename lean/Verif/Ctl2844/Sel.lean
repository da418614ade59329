import Verif.Ctl2844.Bus

/-!
# The 2844: initial selection

From the moment the channel puts an address and select out on the interface up to the address
the control unit puts on bus in, whatever the order in which the channel's cycles and the
microinstructions come.
-/

namespace Verif.Ctl2844

/-! ## Tags -/

theorem up_sel (t : T) : up t SEL_OUT = t.getLsbD 15 := by
  unfold up SEL_OUT
  rw [show (0x8000#16 : T) = BitVec.twoPow 16 15 by decide, BitVec.and_twoPow]
  cases t.getLsbD 15 <;> decide

theorem up_adr (t : T) : up t ADR_OUT = t.getLsbD 14 := by
  unfold up ADR_OUT
  rw [show (0x4000#16 : T) = BitVec.twoPow 16 14 by decide, BitVec.and_twoPow]
  cases t.getLsbD 14 <;> decide

theorem up_opr (t : T) : up t OPR_OUT = t.getLsbD 9 := by
  unfold up OPR_OUT
  rw [show (0x0200#16 : T) = BitVec.twoPow 16 9 by decide, BitVec.and_twoPow]
  cases t.getLsbD 9 <;> decide

theorem up_cmd (t : T) : up t CMD_OUT = t.getLsbD 13 := by
  unfold up CMD_OUT
  rw [show (0x2000#16 : T) = BitVec.twoPow 16 13 by decide, BitVec.and_twoPow]
  cases t.getLsbD 13 <;> decide

theorem up_oprIn (t : T) : up t OPR_IN = t.getLsbD 7 := by
  unfold up OPR_IN
  rw [show (0x0080#16 : T) = BitVec.twoPow 16 7 by decide, BitVec.and_twoPow]
  cases t.getLsbD 7 <;> decide

theorem up_adrIn (t : T) : up t ADR_IN = t.getLsbD 6 := by
  unfold up ADR_IN
  rw [show (0x0040#16 : T) = BitVec.twoPow 16 6 by decide, BitVec.and_twoPow]
  cases t.getLsbD 6 <;> decide

theorem up_staIn (t : T) : up t STA_IN = t.getLsbD 5 := by
  unfold up STA_IN
  rw [show (0x0020#16 : T) = BitVec.twoPow 16 5 by decide, BitVec.and_twoPow]
  cases t.getLsbD 5 <;> decide

/-- Tags of a cycle by their bits. -/
macro "tags44" : tactic =>
  `(tactic| (simp only [up_sel, up_adr, up_opr, up_cmd, up_oprIn, up_adrIn, up_staIn]
             simp [SEL_OUT, ADR_IN, OPR_IN, STA_IN, SRV_IN]))

/-! ## The state during selection -/

/-- What the channel's cycles leave alone during selection. -/
structure Regs where
  addr : T
  WX : T
  ST : B
  OP : B
  BY : B
  DW : B
  UR : B
  FT : B
  FC : B
  IG : B
  SC : B
  unit : BitVec 3
  disk : BitVec 3 → Option Dasd.S

def Ctx.regs (c : Ctx) : Regs :=
  ⟨c.addr, c.WX, c.ST, c.OP, c.BY, c.DW, c.UR, c.FT, c.FC, c.IG, c.SC, c.unit, c.disk⟩

/-- The interface side before address in. -/
structure Calm (c : Ctx) : Prop where
  request : c.request = false
  sta : c.sta_in = false
  srv : c.srv_in = false
  svc : c.svc_req = false
  er3 : bit c.ER 3 = false
  opr : c.opr_in = false

/-- The interface side while the channel selects address `a`. -/
structure Sel (a : B) (c : Ctx) : Prop where
  sel : c.selected = true
  adr : c.addressed = true
  request : c.request = false
  sta : c.sta_in = false
  srv : c.srv_in = false
  svc : c.svc_req = false
  er1 : bit c.ER 1 = true
  er3 : bit c.ER 3 = false
  out : c.bus_out = a
  opr : c.IG = 0x08#8 → c.opr_in = false
  cmd : up c.tags CMD_OUT = false

/-- A cycle of the channel before address in. -/
theorem bus_select {c : Ctx} (h : Calm c) (bo t b : T) (hg : c.IG = 0x08#8) (ho : up t OPR_OUT = true) (ha : up t ADR_OUT = true)
    (hs : up t SEL_OUT = true) (hm : up t CMD_OUT = false) (hk : takes c bo = true) :
    ∃ c' t', dev bo ⟨c, t, b⟩ = ⟨c', t', b⟩ ∧ Sel (bo.setWidth 8) c' ∧ c'.regs = c.regs ∧ c'.opr_in = false ∧
      up t' SEL_OUT = false ∧ up t' ADR_IN = false ∧ up t' OPR_IN = up t OPR_IN := by
  have hn := noReset ho
  have hk' : (bo &&& 0xf0#16) = c.addr ∨ parityOk bo = true := by
    rcases Bool.or_eq_true_iff.1 hk with h1 | h1
    · exact .inl (of_decide_eq_true h1)
    · exact .inr h1
  generalize he : dev bo ⟨c, t, b⟩ = o
  cases ht : c.tr_1 <;> bus44 he [hn, ha, hs, takes, hk', hg, bits08, h.sta, h.opr, h.request, h.svc, h.srv, ht] <;> subst he
  all_goals
    refine ⟨_, _, rfl, ⟨rfl, rfl, rfl, rfl, rfl, rfl, ?_, ?_, rfl, fun _ => rfl, hm⟩, ?_, rfl, ?_, ?_, ?_⟩
    · simp [bit_putBit, bit_setBit]
    · simp [bit_putBit, bit_setBit, h.er3]
    · simp [Ctx.regs, hg]
    · tags44
    · tags44
    · tags44

/-- A cycle of the channel once the microprogram has asked for address in. -/
theorem bus_adrIn {c : Ctx} {a : B} (h : Sel a c) (bo t b : T) (hg : c.IG = 0x01#8) (ho : up t OPR_OUT = true)
    (ha : up t ADR_OUT = true) (hs : up t SEL_OUT = true) (hm : up t CMD_OUT = false) (hk : takes c bo = true) :
    ∃ c' t', dev bo ⟨c, t, b⟩ = ⟨c', t', withParity c.DW⟩ ∧ Sel (bo.setWidth 8) c' ∧ c'.regs = c.regs ∧ c'.opr_in = true ∧
      up t' SEL_OUT = false ∧ up t' ADR_IN = true ∧ up t' OPR_IN = true ∧ up t' STA_IN = false := by
  have hn := noReset ho
  have hk' : (bo &&& 0xf0#16) = c.addr ∨ parityOk bo = true := by
    rcases Bool.or_eq_true_iff.1 hk with h1 | h1
    · exact .inl (of_decide_eq_true h1)
    · exact .inr h1
  generalize he : dev bo ⟨c, t, b⟩ = o
  bus44 he [hn, ha, hs, takes, hk', hg, bits01, h.sta, h.request, h.svc, h.srv]
  subst he
  refine ⟨_, _, rfl, ⟨rfl, rfl, rfl, rfl, rfl, rfl, ?_, ?_, rfl, ?_, hm⟩, ?_, rfl, ?_, ?_, ?_, ?_⟩
  · simp [bit_putBit, bit_setBit, bit_clrBit]
  · simp [bit_putBit, bit_clrBit]
  · exact fun h => absurd h (by show ¬ (0x01#8 : B) = 0x08#8; decide)
  · simp [Ctx.regs, hg]
  · tags44
  · tags44
  · tags44
  · tags44

end Verif.Ctl2844
