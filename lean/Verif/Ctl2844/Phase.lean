import Verif.Ctl2844.Sel

/-!
# The 2844: the microprogram of initial selection
-/

namespace Verif.Ctl2844

/-- Registers which stay the same all the way. -/
structure Base (r : Regs) : Prop where
  st0 : bit r.ST 0 = false
  fc : r.FC = 0#8
  quiet : Quiet r.disk
  sc : r.SC = 0#8

/-- The control unit's digit of the address. -/
def high (addr : T) : B := (addr &&& 0xf0#16).setWidth 8

/-- Registers up to the reading of the address. -/
structure Start (r : Regs) : Prop where
  ig : r.IG = 0x08#8
  st2 : bit r.ST 2 = false
  ur : r.UR &&& 0x0f#8 = 0#8
  ft : r.FT &&& 0x7e#8 = 0#8

/-- Registers with the control unit's digit in `DW`. -/
structure Mid (r : Regs) : Prop where
  ig : r.IG = 0x08#8
  ur : r.UR &&& 0x0f#8 = 0#8
  ft : r.FT &&& 0x7e#8 = 0#8
  st7 : bit r.ST 7 = true
  dw : r.DW = high r.addr

/-- Registers with the drive's digit in `UR`. -/
structure Unit (a : B) (r : Regs) : Prop where
  ig : r.IG = 0x08#8
  ft : r.FT &&& 0x7e#8 = 0#8
  st7 : bit r.ST 7 = true
  ur : r.UR &&& 0x0f#8 = a &&& 0x0f#8
  un : r.unit = a.setWidth 3

/-- Registers with the drive selected. -/
structure Late (a : B) (r : Regs) : Prop where
  dw : r.DW = high r.addr ||| (a &&& 0x0f#8)
  ft : r.FT = 0x81#8
  st7 : bit r.ST 7 = true
  ur : r.UR &&& 0x0f#8 = a &&& 0x0f#8
  un : r.unit = a.setWidth 3

/-- The registers when `n` microinstructions are left (at most). -/
def Pos (a : B) (n : Nat) (r : Regs) : Prop :=
  match n with
  | 17 => r.WX = 0x502#16 ∧ Start r
  | 16 => r.WX = 0x506#16 ∧ Start r
  | 15 => (r.WX = 0x50e#16 ∨ r.WX = 0x508#16) ∧ Start r
  | 14 => (r.WX = 0x503#16 ∨ r.WX = 0x50f#16) ∧ Start r
  | 13 => (r.WX = 0x511#16 ∨ r.WX = 0x509#16) ∧ Start r ∧ bit r.ST 7 = true ∧ bit r.OP 1 = true ∧ bit r.OP 3 = false
  | 12 => r.WX = 0x515#16 ∧ Mid r ∧ bit r.OP 3 = false
  | 11 => r.WX = 0x520#16 ∧ Mid r ∧ bit r.OP 3 = false
  | 10 => r.WX = 0x512#16 ∧ Mid r ∧ r.BY = a &&& 0x0f#8
  | 9 => r.WX = 0x521#16 ∧ Unit a r ∧ r.DW = high r.addr
  | 8 => r.WX = 0x523#16 ∧ Unit a r ∧ r.DW = high r.addr ∧ r.BY = a &&& 0x0f#8
  | 7 => r.WX = 0x527#16 ∧ Unit a r ∧ r.DW = high r.addr ∧ r.BY = a &&& 0x0f#8
  | 6 => r.WX = 0x51d#16 ∧ Unit a r ∧ r.DW = high r.addr ||| (a &&& 0x0f#8)
  | 5 => r.WX = 0x547#16 ∧ Late a r ∧ r.IG = 0x08#8
  | 4 => r.WX = 0x553#16 ∧ Late a r ∧ r.IG = 0x01#8
  | 3 => (r.WX = 0x558#16 ∨ r.WX = 0x55a#16) ∧ Late a r ∧ r.IG = 0x01#8 ∧ r.OP = a &&& 0x0f#8
  | 2 => (r.WX = 0x54c#16 ∨ r.WX = 0x54d#16 ∨ r.WX = 0x54e#16 ∨ r.WX = 0x54f#16) ∧ Late a r ∧ r.IG = 0x01#8
      ∧ r.OP = a &&& 0x0f#8
  | 1 => (r.WX = 0x554#16 ∨ r.WX = 0x555#16) ∧ Late a r ∧ r.IG = 0x01#8
  | 0 => r.WX = 0x55d#16 ∧ Late a r ∧ r.IG = 0x01#8
  | _ => False

/-- Selection of address `a` with `n` microinstructions left. -/
structure Stage (a : B) (n : Nat) (c : Ctx) : Prop where
  sel : Sel a c
  base : Base c.regs
  pos : Pos a n c.regs

/-- What a microinstruction of the selection leaves alone. -/
theorem Sel.keep {a : B} {c c' : Ctx} (h : Sel a c) (sel : c'.selected = c.selected) (adr : c'.addressed = c.addressed)
    (request : c'.request = c.request) (sta : c'.sta_in = c.sta_in) (srv : c'.srv_in = false) (svc : c'.svc_req = false)
    (er : c'.ER = c.ER) (out : c'.bus_out = c.bus_out) (opr : c'.IG = 0x08#8 → c.IG = 0x08#8) (opi : c'.opr_in = c.opr_in)
    (tags : c'.tags = c.tags) : Sel a c' where
  sel := sel.trans h.sel
  adr := adr.trans h.adr
  request := request.trans h.request
  sta := sta.trans h.sta
  srv := srv
  svc := svc
  er1 := by rw [er]; exact h.er1
  er3 := by rw [er]; exact h.er3
  out := out.trans h.out
  opr := fun hg => opi.trans (h.opr (opr hg))
  cmd := by rw [tags]; exact h.cmd

/-- The next stage. -/
def Nxt (a : B) (n : Nat) (c c' : Ctx) : Prop :=
  (∃ m, (m + 1 = n ∨ n = 16 ∧ m = 14) ∧ Stage a m c') ∧ c'.addr = c.addr ∧ c'.disk = turn c.disk

theorem Base.turn {c c' : Ctx} (h : Base c.regs) (st0 : bit c'.ST 0 = bit c.ST 0) (fc : c'.FC = c.FC) (sc : c'.SC = 0#8)
    (dk : c'.disk = Ctl2844.turn c.disk) : Base c'.regs where
  st0 := st0.trans h.st0
  fc := fc.trans h.fc
  quiet := by show Quiet c'.disk; rw [dk]; exact Quiet.turn h.quiet
  sc := sc

theorem Base.step {c : Ctx} (h : Base c.regs) (n : Nat) (hn : n < 4096) (hw : c.WX = BitVec.ofNat 16 n) :
    step ros c = exec (ros n) { c with SC := 0#8, disk := Ctl2844.turn c.disk } :=
  step_calm c n hn hw (by rw [show c.FC = 0#8 from h.fc]; rfl) h.quiet

theorem and_high (x : B) : (x &&& 0x0f#8 = 0#8) → x.setWidth 3 = 0#3 := by revert x; decide

theorem or_unit (x y : B) (h : x &&& 0x0f#8 = 0#8) : (x ||| (y &&& 0x0f#8)).setWidth 3 = y.setWidth 3 := by
  have h1 := and_high x h
  have h2 : ∀ y : B, (y &&& 0x0f#8).setWidth 3 = y.setWidth 3 := by decide
  rw [BitVec.setWidth_or, h1, h2]
  simp

theorem or_low (x y : B) (h : x &&& 0x0f#8 = 0#8) : (x ||| (y &&& 0x0f#8)) &&& 0x0f#8 = y &&& 0x0f#8 := by
  have : ∀ x y z : B, (x ||| y) &&& z = (x &&& z) ||| (y &&& z) := by
    intro x y z
    apply BitVec.eq_of_getLsbD_eq
    intro i _
    simp [Bool.and_or_distrib_right]
  rw [this, h, BitVec.and_assoc]
  simp

theorem unitStatus_high (c : Ctx) : unitStatus c &&& 0xf0#8 = high c.addr := by
  have h1 : ∀ x y z w : B, (x ||| y ||| z ||| w) &&& 0xf0#8 = ((x &&& 0xf0#8) ||| (y &&& 0xf0#8)) ||| ((z &&& 0xf0#8) ||| (w &&& 0xf0#8)) := by
    intro x y z w
    apply BitVec.eq_of_getLsbD_eq
    intro i _
    simp [Bool.and_or_distrib_right, Bool.or_assoc]
  have h2 : high c.addr &&& 0xf0#8 = high c.addr := by
    unfold high
    apply BitVec.eq_of_getLsbD_eq
    intro i hi
    rcases (by omega : i = 0 ∨ i = 1 ∨ i = 2 ∨ i = 3 ∨ i = 4 ∨ i = 5 ∨ i = 6 ∨ i = 7) with h | h | h | h | h | h | h | h <;> subst h <;> simp
  unfold unitStatus
  rw [h1]
  show (high c.addr &&& 0xf0#8 ||| _) ||| _ = _
  rw [h2]
  split <;> split <;> split <;> simp

theorem m502 {a : B} {c : Ctx} (h : Stage a 17 c) : ∃ c', step ros c = .ok c' ∧ Nxt a 17 c c' := by
  obtain ⟨hw, hp⟩ := h.pos
  replace hw : c.WX = _ := hw
  rw [h.base.step 0x502 (by decide) hw, w502]
  generalize he : exec _ _ = o
  run44 he
  simp [hw] at he
  subst he
  exact ⟨_, rfl, ⟨16, by decide, h.sel.keep rfl rfl rfl rfl h.sel.srv h.sel.svc rfl rfl id rfl rfl,
    h.base.turn (by simp [bit_putBit]) rfl rfl rfl,
    rfl, hp.ig, by simp [Ctx.regs, bit_putBit]; exact hp.st2, hp.ur, hp.ft⟩, rfl, rfl⟩

theorem m506 {a : B} {c : Ctx} (h : Stage a 16 c) : ∃ c', step ros c = .ok c' ∧ Nxt a 16 c c' := by
  obtain ⟨hw, hp⟩ := h.pos
  replace hw : c.WX = _ := hw
  rw [h.base.step 0x506 (by decide) hw, w506]
  generalize he : exec _ _ = o
  run44 he
  cases h3 : bit c.ST 3 <;> simp [hw, h3] at he <;> subst he
  · exact ⟨_, rfl, ⟨15, by decide, h.sel.keep rfl rfl rfl rfl h.sel.srv h.sel.svc rfl rfl id rfl rfl,
      h.base.turn (by simp [bit_putBit]) rfl rfl rfl,
      .inl rfl, hp.ig, by simp [Ctx.regs, bit_putBit]; exact hp.st2, hp.ur, hp.ft⟩, rfl, rfl⟩
  · exact ⟨_, rfl, ⟨14, by decide, h.sel.keep rfl rfl rfl rfl h.sel.srv h.sel.svc rfl rfl id rfl rfl,
      h.base.turn (by simp [bit_putBit]) rfl rfl rfl,
      .inr rfl, hp.ig, by simp [Ctx.regs, bit_putBit]; exact hp.st2, hp.ur, hp.ft⟩, rfl, rfl⟩

theorem m50e {a : B} {c : Ctx} (h : Stage a 15 c) : ∃ c', step ros c = .ok c' ∧ Nxt a 15 c c' := by
  obtain ⟨hw, hp⟩ := h.pos
  have hsel := h.sel.sel
  rcases hw with hw | hw
  · replace hw : c.WX = _ := hw
    rw [h.base.step 0x50e (by decide) hw, w50e]
    generalize he : exec _ _ = o
    run44 he
    simp [hw, hsel] at he
    subst he
    exact ⟨_, rfl, ⟨14, by decide, h.sel.keep (by first | rfl | exact hsel.symm) rfl rfl rfl h.sel.srv h.sel.svc rfl rfl id rfl rfl,
      h.base.turn (by simp [bit_putBit]) rfl rfl rfl,
      .inl rfl, hp.ig, by simp [Ctx.regs, bit_putBit]; exact hp.st2, hp.ur, hp.ft⟩, rfl, rfl⟩
  · replace hw : c.WX = _ := hw
    rw [h.base.step 0x508 (by decide) hw, w508]
    generalize he : exec _ _ = o
    run44 he
    have hz : c.IE &&& 30#8 &&& 192#8 = 0#8 := by rw [BitVec.and_assoc]; simp
    simp [hw, hz] at he
    subst he
    exact ⟨_, rfl, ⟨14, by decide, h.sel.keep (by first | rfl | exact hsel.symm) rfl rfl rfl h.sel.srv h.sel.svc rfl rfl id rfl rfl,
      h.base.turn rfl rfl rfl rfl,
      .inr rfl, hp.ig, hp.st2, hp.ur, hp.ft⟩, rfl, rfl⟩

theorem bit_eq_true_or (x : B) (i : Nat) : bit (x + 0#8) i = bit x i := by simp

theorem m503 {a : B} {c : Ctx} (h : Stage a 14 c) : ∃ c', step ros c = .ok c' ∧ Nxt a 14 c c' := by
  obtain ⟨hw, hp⟩ := h.pos
  have hsel := h.sel.sel
  have h2 : bit c.ST 2 = false := hp.st2
  rcases hw with hw | hw
  · replace hw : c.WX = _ := hw
    rw [h.base.step 0x503 (by decide) hw, w503]
    generalize he : exec _ _ = o
    run44 he
    simp [hw] at he
    subst he
    exact ⟨_, rfl, ⟨13, by decide, h.sel.keep (by first | rfl | exact hsel.symm) rfl rfl rfl rfl h.sel.svc rfl rfl id rfl rfl,
      h.base.turn (by simp [bit_putBit, bit_setBit]) rfl rfl rfl,
      .inl rfl, ⟨hp.ig, by simp [Ctx.regs, bit_putBit, bit_setBit]; exact hp.st2, hp.ur, hp.ft⟩,
      by simp [Ctx.regs, bit_setBit], h.sel.er1, h.sel.er3⟩, rfl, rfl⟩
  · replace hw : c.WX = _ := hw
    rw [h.base.step 0x50f (by decide) hw, w50f]
    generalize he : exec _ _ = o
    run44 he
    simp [hw, hsel, h2] at he
    subst he
    exact ⟨_, rfl, ⟨13, by decide, h.sel.keep (by first | rfl | exact hsel.symm) rfl rfl rfl rfl h.sel.svc rfl rfl id rfl rfl,
      h.base.turn (by simp [bit_putBit, bit_setBit]) rfl rfl rfl,
      .inr rfl, ⟨hp.ig, by simp [Ctx.regs, bit_putBit, bit_setBit]; exact hp.st2, hp.ur, hp.ft⟩,
      by simp [Ctx.regs, bit_setBit], h.sel.er1, h.sel.er3⟩, rfl, rfl⟩

theorem m511 {a : B} {c : Ctx} (h : Stage a 13 c) : ∃ c', step ros c = .ok c' ∧ Nxt a 13 c c' := by
  obtain ⟨hw, hp, h7, ho1, ho3⟩ := h.pos
  have h2 : bit c.ST 2 = false := hp.st2
  replace ho1 : bit c.OP 1 = true := ho1
  rcases hw with hw | hw
  · replace hw : c.WX = _ := hw
    rw [h.base.step 0x511 (by decide) hw, w511]
    generalize he : exec _ _ = o
    run44 he
    simp [hw, h2, ho1] at he
    subst he
    exact ⟨_, rfl, ⟨12, by decide, h.sel.keep rfl rfl rfl rfl h.sel.srv h.sel.svc rfl rfl id rfl rfl,
      h.base.turn (by simp [bit_clrBit]) rfl rfl rfl,
      rfl, ⟨hp.ig, hp.ur, hp.ft, by simp [Ctx.regs, bit_clrBit]; exact h7, unitStatus_high _⟩, ho3⟩, rfl, rfl⟩
  · replace hw : c.WX = _ := hw
    rw [h.base.step 0x509 (by decide) hw, w509]
    generalize he : exec _ _ = o
    run44 he
    simp [hw, ho1] at he
    subst he
    exact ⟨_, rfl, ⟨12, by decide, h.sel.keep rfl rfl rfl rfl h.sel.srv h.sel.svc rfl rfl id rfl rfl,
      h.base.turn (by simp [bit_clrBit]) rfl rfl rfl,
      rfl, ⟨hp.ig, hp.ur, hp.ft, by simp [Ctx.regs, bit_clrBit]; exact h7, unitStatus_high _⟩, ho3⟩, rfl, rfl⟩

theorem m515 {a : B} {c : Ctx} (h : Stage a 12 c) : ∃ c', step ros c = .ok c' ∧ Nxt a 12 c c' := by
  obtain ⟨hw, hp, ho3⟩ := h.pos
  have h0 : bit c.ST 0 = false := h.base.st0
  replace hw : c.WX = _ := hw
  rw [h.base.step 0x515 (by decide) hw, w515]
  generalize he : exec _ _ = o
  run44 he
  simp [hw, h0] at he
  subst he
  exact ⟨_, rfl, ⟨11, by decide, h.sel.keep rfl rfl rfl rfl h.sel.srv h.sel.svc rfl rfl id rfl rfl,
    h.base.turn (by simp [bit_setBit]) rfl rfl rfl,
    rfl, ⟨hp.ig, hp.ur, hp.ft, by simp [Ctx.regs, bit_setBit]; exact hp.st7, hp.dw⟩, ho3⟩, rfl, rfl⟩

theorem m520 {a : B} {c : Ctx} (h : Stage a 11 c) : ∃ c', step ros c = .ok c' ∧ Nxt a 11 c c' := by
  obtain ⟨hw, hp, ho3⟩ := h.pos
  replace ho3 : bit c.OP 3 = false := ho3
  replace hw : c.WX = _ := hw
  rw [h.base.step 0x520 (by decide) hw, w520]
  generalize he : exec _ _ = o
  run44 he
  simp [hw, ho3] at he
  subst he
  exact ⟨_, rfl, ⟨10, by decide, h.sel.keep rfl rfl rfl rfl h.sel.srv h.sel.svc rfl rfl id rfl rfl,
    h.base.turn (by simp [bit_setBit]) rfl rfl rfl,
    rfl, ⟨hp.ig, hp.ur, hp.ft, by simp [Ctx.regs, bit_setBit]; exact hp.st7, hp.dw⟩,
    by simp [Ctx.regs, h.sel.out]⟩, rfl, rfl⟩

theorem m512 {a : B} {c : Ctx} (h : Stage a 10 c) : ∃ c', step ros c = .ok c' ∧ Nxt a 10 c c' := by
  obtain ⟨hw, hp, hb⟩ := h.pos
  replace hw : c.WX = _ := hw
  replace hb : c.BY = _ := hb
  rw [h.base.step 0x512 (by decide) hw, w512]
  generalize he : exec _ _ = o
  run44 he
  simp [hw, hb] at he
  subst he
  exact ⟨_, rfl, ⟨9, by decide, h.sel.keep rfl rfl rfl rfl h.sel.srv h.sel.svc rfl rfl id rfl rfl,
    h.base.turn rfl rfl rfl rfl,
    rfl, ⟨hp.ig, hp.ft, hp.st7, or_low _ _ hp.ur, by
      have := or_unit c.UR a hp.ur
      simpa [Ctx.regs] using this⟩, hp.dw⟩, rfl, rfl⟩

theorem m521 {a : B} {c : Ctx} (h : Stage a 9 c) : ∃ c', step ros c = .ok c' ∧ Nxt a 9 c c' := by
  obtain ⟨hw, hp, hd⟩ := h.pos
  replace hw : c.WX = _ := hw
  rw [h.base.step 0x521 (by decide) hw, w521]
  generalize he : exec _ _ = o
  run44 he
  simp [hw] at he
  subst he
  exact ⟨_, rfl, ⟨8, by decide, h.sel.keep rfl rfl rfl rfl h.sel.srv h.sel.svc rfl rfl id rfl rfl,
    h.base.turn rfl rfl rfl rfl,
    rfl, ⟨hp.ig, hp.ft, hp.st7, hp.ur, hp.un⟩, hd, hp.ur⟩, rfl, rfl⟩

theorem m523 {a : B} {c : Ctx} (h : Stage a 8 c) : ∃ c', step ros c = .ok c' ∧ Nxt a 8 c c' := by
  obtain ⟨hw, hp, hd, hb⟩ := h.pos
  replace hw : c.WX = _ := hw
  rw [h.base.step 0x523 (by decide) hw, w523]
  generalize he : exec _ _ = o
  run44 he
  simp [hw] at he
  split at he <;> subst he
  · exact ⟨_, rfl, ⟨7, by decide, h.sel.keep rfl rfl rfl rfl h.sel.srv h.sel.svc rfl rfl id rfl rfl,
      h.base.turn rfl rfl rfl rfl,
      rfl, ⟨hp.ig, hp.ft, hp.st7, hp.ur, hp.un⟩, hd, hb⟩, rfl, rfl⟩
  · exact ⟨_, rfl, ⟨7, by decide, h.sel.keep rfl rfl rfl rfl h.sel.srv h.sel.svc rfl rfl id rfl rfl,
      h.base.turn (by simp [bit_setBit]) rfl rfl rfl,
      rfl, ⟨hp.ig, hp.ft, by simp [Ctx.regs, bit_setBit]; exact hp.st7, hp.ur, hp.un⟩, hd, hb⟩, rfl, rfl⟩

theorem m527 {a : B} {c : Ctx} (h : Stage a 7 c) : ∃ c', step ros c = .ok c' ∧ Nxt a 7 c c' := by
  obtain ⟨hw, hp, hd, hb⟩ := h.pos
  replace hw : c.WX = _ := hw
  replace hd : c.DW = _ := hd
  replace hb : c.BY = _ := hb
  rw [h.base.step 0x527 (by decide) hw, w527]
  generalize he : exec _ _ = o
  run44 he
  simp [hw, hd, hb] at he
  subst he
  exact ⟨_, rfl, ⟨6, by decide, h.sel.keep rfl rfl rfl rfl h.sel.srv h.sel.svc rfl rfl id rfl rfl,
    h.base.turn rfl rfl rfl rfl,
    rfl, ⟨hp.ig, hp.ft, hp.st7, hp.ur, hp.un⟩, rfl⟩, rfl, rfl⟩

/-- Selecting a drive (tags 0x81, nothing gated) only ends a read or write gate. -/
theorem setTags_select (d : Dasd.S) : ∃ d', Dasd.setTags d 0x81 0 = .ok d' ∧ d'.attn = d.attn ∧ d'.opened = d.opened := by
  refine ⟨Dasd.ctlGate d 0, ?_, rfl, rfl⟩
  unfold Dasd.setTags Dasd.control
  simp [Dasd.ctlSeek, Dasd.ctlReset, Dasd.ctlErase, Dasd.ctlRecal, Dasd.ctlHead, Dasd.tagCyl, Dasd.tagHead, Dasd.tagDiff,
    Card.Res.bind]

/-- The drive is selected: with no drive at the address, through a null pointer. -/
theorem m51d_none {a : B} {c : Ctx} (h : Stage a 6 c) (hd : c.disk (a.setWidth 3) = none) : step ros c = .null := by
  obtain ⟨hw, hp, _⟩ := h.pos
  have hu : c.unit = a.setWidth 3 := hp.un
  have ht : turn c.disk (a.setWidth 3) = none := by unfold turn; rw [hd]; rfl
  replace hw : c.WX = _ := hw
  rw [h.base.step 0x51d (by decide) hw, w51d]
  generalize he : exec _ _ = o
  run44 he
  have hf : c.FT &&& 126#8 = 0#8 := hp.ft
  simp [driveTags, hu, ht, gateReg, hf] at he
  exact he.symm

theorem m51d {a : B} {c : Ctx} (h : Stage a 6 c) (hd : (c.disk (a.setWidth 3)).isSome = true) :
    ∃ c', step ros c = .ok c' ∧ Stage a 5 c' ∧ c'.addr = c.addr ∧ ∀ i, (c'.disk i).isSome = (c.disk i).isSome := by
  obtain ⟨hw, hp, hdw⟩ := h.pos
  have h7 : bit c.ST 7 = true := hp.st7
  have hu : c.unit = a.setWidth 3 := hp.un
  obtain ⟨d, ht⟩ : ∃ d, turn c.disk (a.setWidth 3) = some d := by
    rw [← turn_isSome] at hd
    exact Option.isSome_iff_exists.1 hd
  obtain ⟨d', hs, hat, _⟩ := setTags_select d
  replace hw : c.WX = _ := hw
  have hf : c.FT &&& 126#8 = 0#8 := hp.ft
  have hfc : c.FC = 0#8 := h.base.fc
  rw [h.base.step 0x51d (by decide) hw, w51d]
  generalize he : exec _ _ = o
  run44 he
  simp [hw, h7, driveTags, hu, ht, gateReg, hf, hfc, hs, ofRes, setDisk] at he
  subst he
  refine ⟨_, rfl, ⟨h.sel.keep rfl rfl rfl rfl h.sel.srv h.sel.svc rfl rfl id rfl rfl,
    ⟨by simpa [Ctx.regs, bit_clrBit] using h.base.st0, rfl, ?_, rfl⟩,
    rfl, ⟨hdw, rfl, by simpa [Ctx.regs, bit_clrBit] using h7, hp.ur, rfl⟩, hp.ig⟩, rfl, ?_⟩
  · intro i e hi
    by_cases hx : i = a.setWidth 3
    · simp only [Ctx.regs, hx, if_true, Option.some.injEq] at hi
      rw [← hi, hat]
      exact (Quiet.turn h.base.quiet) _ _ ht
    · simp only [Ctx.regs, hx, if_false] at hi
      exact (Quiet.turn h.base.quiet) _ _ hi
  · intro i
    by_cases hx : i = a.setWidth 3
    · subst hx
      simp only [if_true, hd]
      rfl
    · simp only [hx, if_false, turn_isSome]

theorem m547 {a : B} {c : Ctx} (h : Stage a 5 c) : ∃ c', step ros c = .ok c' ∧ Nxt a 5 c c' := by
  obtain ⟨hw, hp, hg⟩ := h.pos
  have hsv := h.sel.svc
  replace hw : c.WX = _ := hw
  rw [h.base.step 0x547 (by decide) hw, w547]
  generalize he : exec _ _ = o
  run44 he
  simp [hw, bits01, hsv] at he
  subst he
  exact ⟨_, rfl, ⟨4, by decide, h.sel.keep rfl rfl rfl rfl h.sel.srv (by first | rfl | exact hsv) rfl rfl (fun h => absurd h (by show ¬ (0x01#8 : B) = 0x08#8; decide)) rfl rfl,
    h.base.turn rfl rfl rfl rfl,
    rfl, ⟨hp.dw, hp.ft, hp.st7, hp.ur, hp.un⟩, rfl⟩, rfl, rfl⟩

theorem m553 {a : B} {c : Ctx} (h : Stage a 4 c) : ∃ c', step ros c = .ok c' ∧ Nxt a 4 c c' := by
  obtain ⟨hw, hp, hg⟩ := h.pos
  replace hw : c.WX = _ := hw
  rw [h.base.step 0x553 (by decide) hw, w553]
  generalize he : exec _ _ = o
  run44 he
  cases h6 : bit c.OP 6 <;> simp [hw, h6] at he <;> subst he
  · exact ⟨_, rfl, ⟨3, by decide, h.sel.keep rfl rfl rfl rfl h.sel.srv h.sel.svc rfl rfl id rfl rfl,
      h.base.turn rfl rfl rfl rfl,
      .inl rfl, ⟨hp.dw, hp.ft, hp.st7, hp.ur, hp.un⟩, hg, hp.ur⟩, rfl, rfl⟩
  · exact ⟨_, rfl, ⟨3, by decide, h.sel.keep rfl rfl rfl rfl h.sel.srv h.sel.svc rfl rfl id rfl rfl,
      h.base.turn rfl rfl rfl rfl,
      .inr rfl, ⟨hp.dw, hp.ft, hp.st7, hp.ur, hp.un⟩, hg, hp.ur⟩, rfl, rfl⟩

theorem m558 {a : B} {c : Ctx} (h : Stage a 3 c) : ∃ c', step ros c = .ok c' ∧ Nxt a 3 c c' := by
  obtain ⟨hw, hp, hg, ho⟩ := h.pos
  rcases hw with hw | hw <;> replace hw : c.WX = _ := hw
  · rw [h.base.step 0x558 (by decide) hw, w558]
    generalize he : exec _ _ = o
    run44 he
    cases h6 : bit c.OP 6 <;> cases h7 : bit c.OP 7 <;> simp [hw, h6, h7] at he <;> subst he <;>
    exact ⟨_, rfl, ⟨2, by decide, h.sel.keep rfl rfl rfl rfl h.sel.srv h.sel.svc rfl rfl id rfl rfl,
      h.base.turn rfl rfl rfl rfl,
      by simp [Ctx.regs], ⟨hp.dw, hp.ft, hp.st7, hp.ur, hp.un⟩, hg, ho⟩, rfl, rfl⟩
  · rw [h.base.step 0x55a (by decide) hw, w55a]
    generalize he : exec _ _ = o
    run44 he
    cases h6 : bit c.OP 6 <;> cases h7 : bit c.OP 7 <;> simp [hw, h6, h7] at he <;> subst he <;>
    exact ⟨_, rfl, ⟨2, by decide, h.sel.keep rfl rfl rfl rfl h.sel.srv h.sel.svc rfl rfl id rfl rfl,
      h.base.turn rfl rfl rfl rfl,
      by simp [Ctx.regs], ⟨hp.dw, hp.ft, hp.st7, hp.ur, hp.un⟩, hg, ho⟩, rfl, rfl⟩

theorem m54c {a : B} {c : Ctx} (h : Stage a 2 c) (ha : bit a 4 = false) : ∃ c', step ros c = .ok c' ∧ Nxt a 2 c c' := by
  obtain ⟨hw, hp, hg, ho⟩ := h.pos
  have h4 : bit c.OP 4 = false := by
    have ho : c.OP = _ := ho
    rw [ho]
    unfold bit at ha ⊢
    rw [BitVec.getLsbD_and, ha, Bool.false_and]
  have hx : ∃ n ck, n < 4096 ∧ c.WX = BitVec.ofNat 16 n ∧ ros n = ⟨0, 2, ck, 13, 15, 84, 2, 0, 0, 0, 1⟩ ∧
      (BitVec.ofNat 16 n : T) &&& 0xe00#16 = 0x400#16 := by
    rcases hw with hw | hw | hw | hw
    · exact ⟨0x54c, _, by decide, hw, w54c, by decide⟩
    · exact ⟨0x54d, _, by decide, hw, w54d, by decide⟩
    · exact ⟨0x54e, _, by decide, hw, w54e, by decide⟩
    · exact ⟨0x54f, _, by decide, hw, w54f, by decide⟩
  obtain ⟨n, ck, hn, hw, hr, hb⟩ := hx
  rw [h.base.step n hn hw, hr]
  rw [← hw] at hb
  generalize he : exec _ _ = o
  run44 he
  cases h5 : bit c.OP 5 <;> simp [hb, h4, h5] at he <;> subst he <;>
  exact ⟨_, rfl, ⟨1, by decide, h.sel.keep rfl rfl rfl rfl h.sel.srv h.sel.svc rfl rfl id rfl rfl,
      h.base.turn rfl rfl rfl rfl,
      by simp [Ctx.regs], ⟨hp.dw, hp.ft, hp.st7, hp.ur, hp.un⟩, hg⟩, rfl, rfl⟩

theorem m554 {a : B} {c : Ctx} (h : Stage a 1 c) : ∃ c', step ros c = .ok c' ∧ Nxt a 1 c c' := by
  obtain ⟨hw, hp, hg⟩ := h.pos
  have h7 : bit c.ST 7 = true := hp.st7
  rcases hw with hw | hw <;> replace hw : c.WX = _ := hw
  · rw [h.base.step 0x554 (by decide) hw, w554]
    generalize he : exec _ _ = o
    run44 he
    simp [hw, h7] at he
    subst he
    exact ⟨_, rfl, ⟨0, by decide, h.sel.keep rfl rfl rfl rfl h.sel.srv h.sel.svc rfl rfl id rfl rfl,
      h.base.turn rfl rfl rfl rfl,
      rfl, ⟨hp.dw, hp.ft, hp.st7, hp.ur, hp.un⟩, hg⟩, rfl, rfl⟩
  · rw [h.base.step 0x555 (by decide) hw, w555]
    generalize he : exec _ _ = o
    run44 he
    simp [hw, h7] at he
    subst he
    exact ⟨_, rfl, ⟨0, by decide, h.sel.keep rfl rfl rfl rfl h.sel.srv h.sel.svc rfl rfl id rfl rfl,
      h.base.turn rfl rfl rfl rfl,
      rfl, ⟨hp.dw, hp.ft, hp.st7, hp.ur, hp.un⟩, hg⟩, rfl, rfl⟩

/-- Waiting for command out. -/
theorem m55d {a : B} {c : Ctx} (h : Stage a 0 c) :
    ∃ c', step ros c = .ok c' ∧ Stage a 0 c' ∧ c'.addr = c.addr ∧ c'.disk = turn c.disk := by
  obtain ⟨hw, hp, hg⟩ := h.pos
  have hc : c.tags &&& 0x2000#16 = 0#16 := by
    have := h.sel.cmd
    unfold up CMD_OUT at this
    simpa using this
  replace hw : c.WX = _ := hw
  rw [h.base.step 0x55d (by decide) hw, w55d]
  generalize he : exec _ _ = o
  run44 he
  simp [hw, hc] at he
  subst he
  exact ⟨_, rfl, ⟨h.sel.keep rfl rfl rfl rfl rfl h.sel.svc rfl rfl id rfl rfl,
    h.base.turn rfl rfl rfl rfl,
    rfl, ⟨hp.dw, hp.ft, hp.st7, hp.ur, hp.un⟩, hg⟩, rfl, rfl⟩

end Verif.Ctl2844
