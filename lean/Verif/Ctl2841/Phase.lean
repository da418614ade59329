import Verif.Ctl2841.Sel

/-!
# The 2841: the microprogram of initial selection, word by word
-/

namespace Verif.Ctl2841
open Verif.Ctl2844 hiding Regs Base Pos Calm Sel Stage LStage bus_select bus_adrIn Start Ctx.regs

/-- The current drive is there. -/
def CurOk (cur : Option (BitVec 3)) (disk : BitVec 3 → Option Dasd.S) : Prop := ∀ i, cur = some i → (disk i).isSome = true

/-- The words from address in on: the drive is made out and its gates are opened, then the
microprogram waits for command out. -/
def Late (r : Regs) : Prop :=
  ((r.WX = 0x5f0#16 ∨ r.WX = 0x5f1#16 ∨ r.WX = 0x560#16 ∨ r.WX = 0x561#16 ∨ r.WX = 0x562#16 ∨ r.WX = 0x563#16 ∨
    r.WX = 0x504#16 ∨ r.WX = 0x506#16) ∧ r.FT = 0#8) ∨
  (r.WX = 0x5f4#16 ∧ (r.FT = 0x01#8 ∨ r.FT = 0x04#8)) ∨
  r.WX = 0x5f6#16 ∨ r.WX = 0x5cd#16 ∨ r.WX = 0x5de#16 ∨ r.WX = 0x5c8#16 ∨ r.WX = 0x5c9#16

/-- What holds all the time. -/
structure Base (r : Regs) : Prop where
  st0 : bit r.ST 0 = false
  st2 : bit r.ST 2 = false
  st7 : bit r.ST 7 = true
  fc : r.FC = 0#8
  quiet : Quiet r.disk
  sc : r.SC = 0#8

/-- The microprogram `n` words before address in. -/
def Pos (a : B) : Nat → Regs → Prop
  | 0, r => r.IG = 0x01#8 ∧ r.DW = a ∧ CurOk r.cur r.disk ∧ Late r
  | 1, r => r.WX = 0x516#16 ∧ r.IG = 0x08#8 ∧ r.DW = a ∧ CurOk r.cur r.disk ∧ r.FT = 0#8
  | 2, r => r.WX = 0x501#16 ∧ r.IG = 0x08#8 ∧ r.DW = a ∧ CurOk r.cur r.disk ∧ r.FT = 0#8 ∧ bit r.OP 3 = false
  | 3, r => r.WX = 0x5d4#16 ∧ r.IG = 0x08#8 ∧ r.DW = a ∧ CurOk r.cur r.disk ∧ r.FT = 0#8 ∧ bit r.OP 3 = false
  | 4, r => r.WX = 0x545#16 ∧ r.IG = 0x08#8 ∧ CurOk r.cur r.disk ∧ r.FT = 0#8 ∧ bit r.OP 3 = false
  | 5, r => r.WX = 0x5b7#16 ∧ r.IG = 0x08#8 ∧ r.FT = 0#8 ∧ bit r.OP 1 = true ∧ bit r.OP 3 = false
  | 6, r => (r.WX = 0x5b6#16 ∨ r.WX = 0x5bb#16) ∧ r.IG = 0x08#8 ∧ r.FT = 0#8
  | _, _ => False

/-- Selection in progress. -/
structure Stage (a : B) (n : Nat) (c : Ctx) : Prop where
  sel : Sel a c
  base : Base c.regs
  pos : Pos a n c.regs

theorem Stage.step_eq {a : B} {k : Nat} {c : Ctx} (h : Stage a k c) (n : Nat) (hn : n < 4096) (hw : c.WX = BitVec.ofNat 16 n) :
    step ros c = exec (ros n) { c with SC := 0#8, disk := turn c.disk } :=
  step_calm c n hn hw (by rw [show c.FC = 0#8 from h.base.fc]; rfl) h.base.quiet

theorem CurOk.turn {cur : Option (BitVec 3)} {disk : BitVec 3 → Option Dasd.S} (h : CurOk cur disk) : CurOk cur (turn disk) :=
  fun i hi => by rw [turn_isSome]; exact h i hi

theorem curOf_ok (c : Ctx) (x : B) : CurOk (curOf c x) c.disk := by
  intro i hi
  unfold curOf at hi
  split at hi
  · cases hi
  · split at hi
    · cases hi; assumption
    · cases hi

/-- What a microinstruction leads to. -/
def Nxt (a : B) (n : Nat) (c : Ctx) (c' : Ctx) : Prop := Stage a n c' ∧ c'.addr = c.addr

/-! ## The words before address in -/

theorem m5b6 {a : B} {c : Ctx} (h : Stage a 6 c) : ∃ c', step ros c = .ok c' ∧ Nxt a 5 c c' := by
  obtain ⟨hw, hg, hf⟩ := h.pos
  have e1 := h.sel.er1
  have e3 := h.sel.er3
  rcases hw with hw | hw
  · have hw : c.WX = 0x5b6#16 := hw
    rw [h.step_eq 0x5b6 (by decide) hw, w5b6]
    generalize he : exec _ _ = o
    run41 he
    simp [hw, h.sel.sel] at he
    subst he
    exact ⟨_, rfl, ⟨⟨⟨h.sel.request, h.sel.sta, rfl, h.sel.svc, h.sel.er3, h.sel.er7, h.sel.opr⟩,
      (by first | rfl | exact h.sel.sel), h.sel.adr, h.sel.er1, h.sel.out, h.sel.cmd⟩,
      ⟨h.base.st0, h.base.st2, h.base.st7, h.base.fc, h.base.quiet.turn, rfl⟩, rfl, hg, hf, e1, e3⟩, rfl⟩
  · have hw : c.WX = 0x5bb#16 := hw
    rw [h.step_eq 0x5bb (by decide) hw, w5bb]
    generalize he : exec _ _ = o
    run41 he
    simp [hw, h.sel.sel] at he
    subst he
    exact ⟨_, rfl, ⟨⟨⟨h.sel.request, h.sel.sta, rfl, h.sel.svc, h.sel.er3, h.sel.er7, h.sel.opr⟩,
      (by first | rfl | exact h.sel.sel), h.sel.adr, h.sel.er1, h.sel.out, h.sel.cmd⟩,
      ⟨h.base.st0, h.base.st2, h.base.st7, h.base.fc, h.base.quiet.turn, rfl⟩, rfl, hg, hf, e1, e3⟩, rfl⟩

theorem m5b7 {a : B} {c : Ctx} (h : Stage a 5 c) : ∃ c', step ros c = .ok c' ∧ Nxt a 4 c c' := by
  obtain ⟨hw, hg, hf, o1, o3⟩ := h.pos
  have hw : c.WX = 0x5b7#16 := hw
  have o1 : bit c.OP 1 = true := o1
  rw [h.step_eq 0x5b7 (by decide) hw, w5b7]
  generalize he : exec _ _ = o
  run41 he
  simp [hw, o1] at he
  subst he
  exact ⟨_, rfl, ⟨⟨⟨h.sel.request, h.sel.sta, h.sel.srv, h.sel.svc, h.sel.er3, h.sel.er7, h.sel.opr⟩,
      h.sel.sel, h.sel.adr, h.sel.er1, h.sel.out, h.sel.cmd⟩,
      ⟨by simp [Ctx.regs, bit_clrBit]; exact h.base.st0, by simp [Ctx.regs, bit_clrBit]; exact h.base.st2,
       by simp [Ctx.regs, bit_clrBit]; exact h.base.st7, h.base.fc, h.base.quiet.turn, rfl⟩,
       rfl, hg, fun i hi => curOf_ok _ _ i hi, hf, o3⟩, rfl⟩

theorem m545 {a : B} {c : Ctx} (h : Stage a 4 c) : ∃ c', step ros c = .ok c' ∧ Nxt a 3 c c' := by
  obtain ⟨hw, hg, hcur, hf, o3⟩ := h.pos
  have hw : c.WX = 0x545#16 := hw
  have s2 : bit c.ST 2 = false := h.base.st2
  rw [h.step_eq 0x545 (by decide) hw, w545]
  generalize he : exec _ _ = o
  run41 he
  simp [hw, s2] at he
  subst he
  exact ⟨_, rfl, ⟨⟨⟨h.sel.request, h.sel.sta, h.sel.srv, h.sel.svc, h.sel.er3, h.sel.er7, h.sel.opr⟩,
      h.sel.sel, h.sel.adr, h.sel.er1, h.sel.out, h.sel.cmd⟩,
      ⟨by simp [Ctx.regs, bit_setBit]; exact h.base.st0, by simp [Ctx.regs, bit_setBit]; exact h.base.st2,
       by simp [Ctx.regs, bit_setBit]; exact h.base.st7, h.base.fc, h.base.quiet.turn, rfl⟩,
       rfl, hg, h.sel.out, hcur.turn, hf, o3⟩, rfl⟩

theorem m5d4 {a : B} {c : Ctx} (h : Stage a 3 c) : ∃ c', step ros c = .ok c' ∧ Nxt a 2 c c' := by
  obtain ⟨hw, hg, hd, hcur, hf, o3⟩ := h.pos
  have hw : c.WX = 0x5d4#16 := hw
  have s0 : bit c.ST 0 = false := h.base.st0
  rw [h.step_eq 0x5d4 (by decide) hw, w5d4]
  generalize he : exec _ _ = o
  run41 he
  simp [hw, s0] at he
  subst he
  exact ⟨_, rfl, ⟨⟨⟨h.sel.request, h.sel.sta, h.sel.srv, h.sel.svc, h.sel.er3, h.sel.er7, h.sel.opr⟩,
      h.sel.sel, h.sel.adr, h.sel.er1, h.sel.out, h.sel.cmd⟩,
      ⟨by simp [Ctx.regs, bit_clrBit]; exact h.base.st0, by simp [Ctx.regs, bit_clrBit]; exact h.base.st2,
       by simp [Ctx.regs, bit_clrBit]; exact h.base.st7, h.base.fc, h.base.quiet.turn, rfl⟩,
       rfl, hg, hd, hcur.turn, hf, o3⟩, rfl⟩

theorem m501 {a : B} {c : Ctx} (h : Stage a 2 c) : ∃ c', step ros c = .ok c' ∧ Nxt a 1 c c' := by
  obtain ⟨hw, hg, hd, hcur, hf, o3⟩ := h.pos
  have hw : c.WX = 0x501#16 := hw
  have o3 : bit c.OP 3 = false := o3
  rw [h.step_eq 0x501 (by decide) hw, w501]
  generalize he : exec _ _ = o
  run41 he
  simp [hw, o3] at he
  subst he
  exact ⟨_, rfl, ⟨⟨⟨h.sel.request, h.sel.sta, h.sel.srv, h.sel.svc, h.sel.er3, h.sel.er7, h.sel.opr⟩,
      h.sel.sel, h.sel.adr, h.sel.er1, h.sel.out, h.sel.cmd⟩,
      ⟨by simp [Ctx.regs, bit_clrBit]; exact h.base.st0, by simp [Ctx.regs, bit_clrBit]; exact h.base.st2,
       by simp [Ctx.regs, bit_clrBit]; exact h.base.st7, h.base.fc, h.base.quiet.turn, rfl⟩,
       rfl, hg, hd, hcur.turn, hf⟩, rfl⟩

theorem m516 {a : B} {c : Ctx} (h : Stage a 1 c) : ∃ c', step ros c = .ok c' ∧ Nxt a 0 c c' := by
  obtain ⟨hw, hg, hd, hcur, hf⟩ := h.pos
  have hw : c.WX = 0x516#16 := hw
  rw [h.step_eq 0x516 (by decide) hw, w516]
  generalize he : exec _ _ = o
  run41 he
  cases o5 : bit c.OP 5 <;> simp [hw, o5] at he <;> subst he
  · exact ⟨_, rfl, ⟨⟨⟨h.sel.request, h.sel.sta, h.sel.srv, by simp [h.sel.svc]; exact fun x => absurd x (by decide), h.sel.er3, h.sel.er7,
      fun x => absurd (show (0x01#8 : B) = 0x08#8 from x) (by decide)⟩, h.sel.sel, h.sel.adr, h.sel.er1, h.sel.out, h.sel.cmd⟩,
      ⟨h.base.st0, h.base.st2, h.base.st7, h.base.fc, h.base.quiet.turn, rfl⟩,
      rfl, hd, hcur.turn, .inl ⟨.inl rfl, hf⟩⟩, rfl⟩
  · exact ⟨_, rfl, ⟨⟨⟨h.sel.request, h.sel.sta, h.sel.srv, by simp [h.sel.svc]; exact fun x => absurd x (by decide), h.sel.er3, h.sel.er7,
      fun x => absurd (show (0x01#8 : B) = 0x08#8 from x) (by decide)⟩, h.sel.sel, h.sel.adr, h.sel.er1, h.sel.out, h.sel.cmd⟩,
      ⟨h.base.st0, h.base.st2, h.base.st7, h.base.fc, h.base.quiet.turn, rfl⟩,
      rfl, hd, hcur.turn, .inl ⟨.inr (.inl rfl), hf⟩⟩, rfl⟩

/-! ## The words after it -/

/-- The drive takes the tags of an idle gate register. -/
theorem setTags_idle (d : Dasd.S) (ft : B) (h : ft = 0x01#8 ∨ ft = 0x04#8 ∨ ft = 0x81#8 ∨ ft = 0x84#8) :
    ∃ d', Dasd.setTags d ft.toNat 0 = .ok d' ∧ d'.attn = d.attn := by
  rcases h with rfl | rfl | rfl | rfl
  · exact ⟨_, rfl, rfl⟩
  · exact ⟨_, rfl, rfl⟩
  · refine ⟨Dasd.ctlGate d 0, ?_, rfl⟩
    unfold Dasd.setTags Dasd.control Dasd.ctlSeek Dasd.ctlReset Dasd.ctlErase Dasd.ctlRecal Dasd.ctlHead Dasd.tagDiff
      Dasd.tagHead Dasd.tagCyl
    simp [Card.Res.bind]
  · exact ⟨_, rfl, rfl⟩

/-- The gates set with no function and no difference. -/
theorem gates (c : Ctx) (hq : Quiet c.disk) (hcur : CurOk c.cur c.disk) (hfc : c.FC = 0#8)
    (hft : c.FT = 0x01#8 ∨ c.FT = 0x04#8 ∨ c.FT = 0x81#8 ∨ c.FT = 0x84#8) :
    ∃ disk', (driveTags c).bind driveUpdate = .ok { c with disk := disk' } ∧ Quiet disk' ∧ CurOk c.cur disk' := by
  rcases Option.eq_none_or_eq_some c.cur with hc | ⟨i, hc⟩
  · refine ⟨c.disk, ?_, hq, hcur⟩
    have e1 : driveTags c = .ok c := by unfold driveTags; rw [hc]
    have e2 : driveUpdate c = .ok c := by unfold driveUpdate; rw [hc]
    rw [e1]
    exact e2
  · obtain ⟨d, hd⟩ := Option.isSome_iff_exists.1 (hcur i hc)
    obtain ⟨d', h1, h2⟩ := setTags_idle d c.FT hft
    refine ⟨(setDisk c i d').disk, ?_, ?_, ?_⟩
    · have e1 : driveTags c = .ok (setDisk c i d') := by
        unfold driveTags
        rw [hc]
        dsimp only
        rw [hd]
        dsimp only
        rw [show c.FC.toNat = 0 by rw [hfc]; rfl, h1]
        rfl
      have e2 : driveUpdate (setDisk c i d') = .ok (setDisk c i d') := by
        unfold driveUpdate
        rw [show (setDisk c i d').cur = some i from hc]
        dsimp only
        rw [show (setDisk c i d').disk i = some d' by simp [setDisk]]
        dsimp only
        rw [if_neg (by rw [show (setDisk c i d').FC = 0#8 from hfc]; rintro ⟨_, h⟩; exact h rfl)]
      rw [e1]
      exact e2
    · intro j e hj
      by_cases hji : j = i
      · subst hji
        have : (setDisk c j d').disk j = some d' := by simp [setDisk]
        rw [this] at hj
        cases hj
        rw [h2]
        exact hq j d hd
      · have : (setDisk c i d').disk j = c.disk j := by simp [setDisk, hji]
        rw [this] at hj
        exact hq j e hj
    · intro j hj
      rw [hc] at hj
      cases hj
      simp [setDisk]

/-- What the words after address in leave alone. -/
theorem late_keep {a : B} {c c' : Ctx} (h : Stage a 0 c) (h1 : c'.request = c.request) (h2 : c'.sta_in = c.sta_in)
    (h3 : c'.srv_in = c.srv_in ∨ c'.srv_in = false) (h4 : c'.svc_req = c.svc_req) (h5 : c'.ER = c.ER)
    (h6 : c'.selected = c.selected)
    (h7 : c'.addressed = c.addressed) (h8 : c'.bus_out = c.bus_out) (h9 : c'.tags = c.tags)
    (s0 : bit c'.ST 0 = false) (s2 : bit c'.ST 2 = bit c.ST 2) (s7 : bit c'.ST 7 = bit c.ST 7) (f : c'.FC = c.FC)
    (q : Quiet c'.disk) (sc : c'.SC = 0#8) (ig : c'.IG = c.IG) (dw : c'.DW = c.DW) (cu : CurOk c'.cur c'.disk)
    (l : Late c'.regs) : Stage a 0 c' := by
  obtain ⟨hg, hd, _, _⟩ := h.pos
  exact ⟨⟨⟨h1.trans h.sel.request, h2.trans h.sel.sta, h3.elim (fun x => x.trans h.sel.srv) id, h4.trans h.sel.svc,
    by rw [h5]; exact h.sel.er3, by rw [h5]; exact h.sel.er7,
    fun x => absurd ((show c.IG = 0x01#8 from hg).symm.trans (ig.symm.trans x)) (by decide)⟩,
    h6.trans h.sel.sel, h7.trans h.sel.adr, by rw [h5]; exact h.sel.er1, h8.trans h.sel.out, by rw [h9]; exact h.sel.cmd⟩,
    ⟨s0, s2.trans h.base.st2, s7.trans h.base.st7, f.trans h.base.fc, q, sc⟩, ig.trans hg, dw.trans hd, cu, l⟩

/-- The state a word with the gate register as its destination leaves, before the drive is told. -/
def gated13 (w : Word) (c : Ctx) : Ctx :=
  { compute (aBus { c with Bbus := bBus c w } w) w (next c w) with
    FT := gateReg (compute (aBus { c with Bbus := bBus c w } w) w (next c w)).FT
      (compute (aBus { c with Bbus := bBus c w } w) w (next c w)).Alu w.cn }

theorem exec13 (w : Word) (c : Ctx) (h13 : w.cd = 13) (hq : Quiet (gated13 w c).disk)
    (hcur : CurOk (gated13 w c).cur (gated13 w c).disk) (hfc : (gated13 w c).FC = 0#8)
    (hft : (gated13 w c).FT = 0x01#8 ∨ (gated13 w c).FT = 0x04#8 ∨ (gated13 w c).FT = 0x81#8 ∨ (gated13 w c).FT = 0x84#8) :
    ∃ disk', exec w c = .ok (flags (keepCarry { gated13 w c with disk := disk' } w.cc) w.cs) ∧ Quiet disk' ∧
      CurOk (gated13 w c).cur disk' := by
  obtain ⟨disk', e, q, k⟩ := gates (gated13 w c) hq hcur hfc hft
  refine ⟨disk', ?_, q, k⟩
  have : dest (compute (aBus { c with Bbus := bBus c w } w) w (next c w)) w = (driveTags (gated13 w c)).bind driveUpdate := by
    unfold dest gated13
    rw [h13]
    rfl
  unfold exec
  rw [this, e]
  rfl

theorem m504 {a : B} {c : Ctx} (h : Stage a 0 c) (hw : c.WX = 0x504#16) (hf : c.FT = 0#8) :
    ∃ c', step ros c = .ok c' ∧ Nxt a 0 c c' := by
  obtain ⟨hg, hd, hcur, _⟩ := h.pos
  rw [h.step_eq 0x504 (by decide) hw, w504]
  obtain ⟨disk', e, q, k⟩ := exec13 ⟨0, 2, 1, 0, 0, 244, 13, 0, 0, 1, 0⟩ { c with SC := 0#8, disk := turn c.disk } rfl
    h.base.quiet.turn hcur.turn h.base.fc (.inl (by simp [gated13, compute, aBus, alu, carryIn, gateReg, bBus, hf]))
  generalize exec _ _ = o at e ⊢
  simp [gated13, flags, keepCarry, compute, aBus, next, nextHi, x6, x7, alu, carryOut, carryIn, gateReg, bBus, hf, hw] at e k
  subst e
  exact ⟨_, rfl, late_keep h rfl rfl (.inl rfl) rfl rfl rfl rfl rfl rfl (by simp [bit_clrBit])
    (by simp [bit_clrBit]) (by simp [bit_clrBit]) rfl q rfl rfl rfl k (.inr (.inl ⟨rfl, .inl rfl⟩)), rfl⟩

theorem m506 {a : B} {c : Ctx} (h : Stage a 0 c) (hw : c.WX = 0x506#16) (hf : c.FT = 0#8) :
    ∃ c', step ros c = .ok c' ∧ Nxt a 0 c c' := by
  obtain ⟨hg, hd, hcur, _⟩ := h.pos
  rw [h.step_eq 0x506 (by decide) hw, w506]
  obtain ⟨disk', e, q, k⟩ := exec13 ⟨0, 2, 4, 0, 15, 244, 13, 0, 0, 1, 0⟩ { c with SC := 0#8, disk := turn c.disk } rfl
    h.base.quiet.turn hcur.turn h.base.fc (.inr (.inl (by simp [gated13, compute, aBus, alu, carryIn, gateReg, bBus, hf])))
  generalize exec _ _ = o at e ⊢
  cases o4 : bit c.OP 4 <;>
  simp [gated13, flags, keepCarry, compute, aBus, next, nextHi, x6, x7, alu, carryOut, carryIn, gateReg, bBus, hf, hw, o4] at e k <;>
  subst e
  · exact ⟨_, rfl, late_keep h rfl rfl (.inl rfl) rfl rfl rfl rfl rfl rfl (by simp [bit_clrBit])
      (by simp [bit_clrBit]) (by simp [bit_clrBit]) rfl q rfl rfl rfl k (.inr (.inl ⟨rfl, .inr rfl⟩)), rfl⟩
  · exact ⟨_, rfl, late_keep h rfl rfl (.inl rfl) rfl rfl rfl rfl rfl rfl (by simp [bit_clrBit])
      (by simp [bit_clrBit]) (by simp [bit_clrBit]) rfl q rfl rfl rfl k (.inr (.inr (.inl rfl))), rfl⟩

theorem m5f4 {a : B} {c : Ctx} (h : Stage a 0 c) (hw : c.WX = 0x5f4#16) (hf : c.FT = 0x01#8 ∨ c.FT = 0x04#8) :
    ∃ c', step ros c = .ok c' ∧ Nxt a 0 c c' := by
  obtain ⟨hg, hd, hcur, _⟩ := h.pos
  have s7 : bit c.ST 7 = true := h.base.st7
  rw [h.step_eq 0x5f4 (by decide) hw, w5f4]
  obtain ⟨disk', e, q, k⟩ := exec13 ⟨0, 2, 128, 4, 0, 204, 13, 0, 0, 0, 0⟩ { c with SC := 0#8, disk := turn c.disk } rfl
    h.base.quiet.turn hcur.turn h.base.fc (by
      rcases hf with hf | hf
      · exact .inr (.inr (.inl (by simp [gated13, compute, aBus, alu, carryIn, gateReg, bBus, hf])))
      · exact .inr (.inr (.inr (by simp [gated13, compute, aBus, alu, carryIn, gateReg, bBus, hf]))))
  generalize exec _ _ = o at e ⊢
  simp [gated13, flags, keepCarry, compute, aBus, next, nextHi, x6, x7, alu, carryOut, carryIn, bBus, hw, s7] at e k
  subst e
  exact ⟨_, rfl, late_keep h rfl rfl (.inl rfl) rfl rfl rfl rfl rfl rfl h.base.st0
    rfl rfl rfl q rfl rfl rfl k (.inr (.inr (.inr (.inl rfl)))), rfl⟩

/-- A word after address in which touches no drive. -/
theorem m5f01 {a : B} {c : Ctx} (h : Stage a 0 c) (hw : c.WX = 0x5f0#16 ∨ c.WX = 0x5f1#16) (hf : c.FT = 0#8) :
    ∃ c', step ros c = .ok c' ∧ Nxt a 0 c c' := by
  obtain ⟨hg, hd, hcur, _⟩ := h.pos
  rcases hw with hw | hw
  · rw [h.step_eq 0x5f0 (by decide) hw, w5f0]
    generalize he : exec _ _ = o
    run41 he
    cases o6 : bit c.OP 6 <;> cases o7 : bit c.OP 7 <;> simp [hw, o6, o7] at he <;> subst he <;>
    exact ⟨_, rfl, late_keep h rfl rfl (.inl rfl) rfl rfl rfl rfl rfl rfl h.base.st0 rfl rfl rfl h.base.quiet.turn rfl rfl rfl
      hcur.turn (.inl ⟨by simp [Ctx.regs], hf⟩), rfl⟩
  · rw [h.step_eq 0x5f1 (by decide) hw, w5f1]
    generalize he : exec _ _ = o
    run41 he
    cases o6 : bit c.OP 6 <;> cases o7 : bit c.OP 7 <;> simp [hw, o6, o7] at he <;> subst he <;>
    exact ⟨_, rfl, late_keep h rfl rfl (.inl rfl) rfl rfl rfl rfl rfl rfl h.base.st0 rfl rfl rfl h.base.quiet.turn rfl rfl rfl
      hcur.turn (.inl ⟨by simp [Ctx.regs], hf⟩), rfl⟩

theorem m560 {a : B} {c : Ctx} (h : Stage a 0 c)
    (hw : c.WX = 0x560#16 ∨ c.WX = 0x561#16 ∨ c.WX = 0x562#16 ∨ c.WX = 0x563#16) (hf : c.FT = 0#8) :
    ∃ c', step ros c = .ok c' ∧ Nxt a 0 c c' := by
  obtain ⟨hg, hd, hcur, _⟩ := h.pos
  rcases hw with hw | hw | hw | hw
  · rw [h.step_eq 0x560 (by decide) hw, w560]
    generalize he : exec _ _ = o
    run41 he
    cases o4 : bit c.OP 4 <;> simp [hw, o4] at he <;> subst he <;>
    exact ⟨_, rfl, late_keep h rfl rfl (.inl rfl) rfl rfl rfl rfl rfl rfl h.base.st0 rfl rfl rfl h.base.quiet.turn rfl rfl rfl
      hcur.turn (.inl ⟨by simp [Ctx.regs], hf⟩), rfl⟩
  · rw [h.step_eq 0x561 (by decide) hw, w561]
    generalize he : exec _ _ = o
    run41 he
    cases o4 : bit c.OP 4 <;> simp [hw, o4] at he <;> subst he <;>
    exact ⟨_, rfl, late_keep h rfl rfl (.inl rfl) rfl rfl rfl rfl rfl rfl h.base.st0 rfl rfl rfl h.base.quiet.turn rfl rfl rfl
      hcur.turn (.inl ⟨by simp [Ctx.regs], hf⟩), rfl⟩
  · rw [h.step_eq 0x562 (by decide) hw, w562]
    generalize he : exec _ _ = o
    run41 he
    cases o4 : bit c.OP 4 <;> simp [hw, o4] at he <;> subst he <;>
    exact ⟨_, rfl, late_keep h rfl rfl (.inl rfl) rfl rfl rfl rfl rfl rfl h.base.st0 rfl rfl rfl h.base.quiet.turn rfl rfl rfl
      hcur.turn (.inl ⟨by simp [Ctx.regs], hf⟩), rfl⟩
  · rw [h.step_eq 0x563 (by decide) hw, w563]
    generalize he : exec _ _ = o
    run41 he
    cases o4 : bit c.OP 4 <;> simp [hw, o4] at he <;> subst he <;>
    exact ⟨_, rfl, late_keep h rfl rfl (.inl rfl) rfl rfl rfl rfl rfl rfl h.base.st0 rfl rfl rfl h.base.quiet.turn rfl rfl rfl
      hcur.turn (.inl ⟨by simp [Ctx.regs], hf⟩), rfl⟩

theorem m5cd {a : B} {c : Ctx} (h : Stage a 0 c)
    (hw : c.WX = 0x5f6#16 ∨ c.WX = 0x5cd#16 ∨ c.WX = 0x5de#16 ∨ c.WX = 0x5c8#16 ∨ c.WX = 0x5c9#16) :
    ∃ c', step ros c = .ok c' ∧ Nxt a 0 c c' := by
  obtain ⟨hg, hd, hcur, _⟩ := h.pos
  have s7 : bit c.ST 7 = true := h.base.st7
  have hcmd := h.sel.cmd
  have e7 := h.sel.er7
  rcases hw with hw | hw | hw | hw | hw
  · rw [h.step_eq 0x5f6 (by decide) hw, w5f6]
    generalize he : exec _ _ = o
    run41 he
    simp [hw, s7] at he
    subst he
    exact ⟨_, rfl, late_keep h rfl rfl (.inl rfl) rfl rfl rfl rfl rfl rfl h.base.st0 rfl rfl rfl h.base.quiet.turn rfl rfl rfl
      hcur.turn (.inr (by simp [Ctx.regs])), rfl⟩
  · rw [h.step_eq 0x5cd (by decide) hw, w5cd]
    generalize he : exec _ _ = o
    run41 he
    simp [hw] at he
    subst he
    exact ⟨_, rfl, late_keep h rfl rfl (.inl rfl) rfl rfl rfl rfl rfl rfl h.base.st0 rfl rfl rfl h.base.quiet.turn rfl rfl rfl
      hcur.turn (.inr (by simp [Ctx.regs])), rfl⟩
  · rw [h.step_eq 0x5de (by decide) hw, w5de]
    generalize he : exec _ _ = o
    run41 he
    cases hz : c.d_nzero <;> simp [hw, hz] at he <;> subst he <;>
    exact ⟨_, rfl, late_keep h rfl rfl (.inl rfl) rfl rfl rfl rfl rfl rfl h.base.st0 rfl rfl rfl h.base.quiet.turn rfl rfl rfl
      (fun i hi => curOf_ok _ _ i hi) (.inr (by simp [Ctx.regs])), rfl⟩
  · rw [h.step_eq 0x5c8 (by decide) hw, w5c8]
    generalize he : exec _ _ = o
    run41 he
    simp [hw, hcmd, e7] at he
    subst he
    exact ⟨_, rfl, late_keep h rfl rfl (.inl rfl) rfl rfl rfl rfl rfl rfl h.base.st0 rfl rfl rfl h.base.quiet.turn rfl rfl rfl
      hcur.turn (.inr (by simp [Ctx.regs])), rfl⟩
  · rw [h.step_eq 0x5c9 (by decide) hw, w5c9]
    generalize he : exec _ _ = o
    run41 he
    simp [hw, hcmd, e7] at he
    subst he
    exact ⟨_, rfl, late_keep h rfl rfl (.inr rfl) rfl rfl rfl rfl rfl rfl (by simp [bit_setBit]; exact h.base.st0)
      (by simp [bit_setBit]) (by simp [bit_setBit]) rfl h.base.quiet.turn rfl rfl rfl
      hcur.turn (.inr (by simp [Ctx.regs])), rfl⟩

/-- A microinstruction during selection. -/
theorem Stage.micro {a : B} {n : Nat} {c : Ctx} (h : Stage a n c) : ∃ c', step ros c = .ok c' ∧ Nxt a (n - 1) c c' := by
  match n, h with
  | 0, h =>
    obtain ⟨_, _, _, hl⟩ := h.pos
    rcases hl with ⟨hw, hf⟩ | ⟨hw, hf⟩ | hw
    · rcases hw with hw | hw | hw | hw | hw | hw | hw | hw
      · exact m5f01 h (.inl hw) hf
      · exact m5f01 h (.inr hw) hf
      · exact m560 h (.inl hw) hf
      · exact m560 h (.inr (.inl hw)) hf
      · exact m560 h (.inr (.inr (.inl hw))) hf
      · exact m560 h (.inr (.inr (.inr hw))) hf
      · exact m504 h hw hf
      · exact m506 h hw hf
    · exact m5f4 h hw hf
    · exact m5cd h hw
  | 1, h => exact m516 h
  | 2, h => exact m501 h
  | 3, h => exact m5d4 h
  | 4, h => exact m545 h
  | 5, h => exact m5b7 h
  | 6, h => exact m5b6 h
  | n + 7, h => exact absurd h.pos (fun x => x)

end Verif.Ctl2841
