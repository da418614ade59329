import Verif.Ctl2844.Words

/-!
# The 2844 at rest

The loop in which the microprogram waits for the channel, and what the control unit does to
the interface while it is in it.
-/

namespace Verif.Ctl2844

/-- The microinstruction lemmas: `exec` of a word known by its fields. -/
macro "run44" h:ident : tactic =>
  `(tactic| simp [exec, aBus, dest, compute, flags, keepCarry, next, nextHi, x6, x7, bBus, alu, carryOut, carryIn] at $h:ident)

/-- The control unit waits for the channel: nothing in progress, no request, no drive asking for
attention. -/
structure Idle (c : Ctx) : Prop where
  loop : c.WX = 0x50e#16 ∨ c.WX = 0x502#16 ∨ c.WX = 0x506#16 ∨ c.WX = 0x50f#16 ∨ c.WX = 0x508#16
  st0 : bit c.ST 0 = false
  st2 : bit c.ST 2 = false
  ig : c.IG = 0x08#8
  request : c.request = false
  opr : c.opr_in = false
  sta : c.sta_in = false
  srv : c.srv_in = false
  svc : c.svc_req = false
  fc : c.FC = 0#8
  ft : c.FT &&& 0x7e#8 = 0#8
  er3 : bit c.ER 3 = false
  ur : c.UR &&& 0x0f#8 = 0#8
  quiet : Quiet c.disk
  sc : c.SC = 0#8

theorem Idle.step_eq {c : Ctx} (h : Idle c) (n : Nat) (hn : n < 4096) (hw : c.WX = BitVec.ofNat 16 n) :
    step ros c = exec (ros n) { c with SC := 0#8, disk := turn c.disk } :=
  step_calm c n hn hw (by rw [h.fc]; rfl) h.quiet

/-- The fields of `Idle` which no word of the loop touches. -/
theorem Idle.keep {c c' : Ctx} (h : Idle c)
    (loop : c'.WX = 0x50e#16 ∨ c'.WX = 0x502#16 ∨ c'.WX = 0x506#16 ∨ c'.WX = 0x50f#16 ∨ c'.WX = 0x508#16)
    (st0 : bit c'.ST 0 = bit c.ST 0) (st2 : bit c'.ST 2 = bit c.ST 2) (ig : c'.IG = c.IG)
    (request : c'.request = c.request) (opr : c'.opr_in = c.opr_in) (sta : c'.sta_in = c.sta_in)
    (srv : c'.srv_in = false) (svc : c'.svc_req = c.svc_req) (fc : c'.FC = c.FC) (ft : c'.FT = c.FT)
    (er : c'.ER = c.ER) (ur : c'.UR = c.UR) (disk : c'.disk = turn c.disk)
    (sc : c'.SC = 0#8) : Idle c' where
  loop := loop
  st0 := st0.trans h.st0
  st2 := st2.trans h.st2
  ig := ig.trans h.ig
  request := request.trans h.request
  opr := opr.trans h.opr
  sta := sta.trans h.sta
  srv := srv
  svc := svc.trans h.svc
  fc := fc.trans h.fc
  ft := by rw [ft]; exact h.ft
  er3 := by rw [er]; exact h.er3
  ur := by rw [ur]; exact h.ur
  quiet := by rw [disk]; exact h.quiet.turn
  sc := sc

/-- A microinstruction while the channel has not selected the control unit: it goes on waiting. -/
theorem Idle.micro {c : Ctx} (h : Idle c) (hs : c.selected = false) :
    ∃ c', step ros c = .ok c' ∧ Idle c' ∧ c'.selected = false ∧ c'.addressed = c.addressed ∧ c'.addr = c.addr
      ∧ c'.disk = turn c.disk ∧ c'.ER = c.ER := by
  rcases h.loop with hw | hw | hw | hw | hw
  · rw [h.step_eq 0x50e (by decide) hw, w50e]
    generalize he : exec _ _ = o
    run44 he
    simp [hw, hs] at he
    subst he
    exact ⟨_, rfl, h.keep (by simp) (by simp [bit_putBit]) (by simp [bit_putBit]) rfl rfl rfl rfl h.srv rfl rfl rfl rfl rfl rfl rfl,
      (by first | exact hs | rfl), rfl, rfl, rfl, rfl⟩
  · rw [h.step_eq 0x502 (by decide) hw, w502]
    generalize he : exec _ _ = o
    run44 he
    simp [hw] at he
    subst he
    exact ⟨_, rfl, h.keep (by simp) (by simp [bit_putBit]) (by simp [bit_putBit]) rfl rfl rfl rfl h.srv rfl rfl rfl rfl rfl rfl rfl,
      (by first | exact hs | rfl), rfl, rfl, rfl, rfl⟩
  · rw [h.step_eq 0x506 (by decide) hw, w506]
    generalize he : exec _ _ = o
    run44 he
    simp [hw] at he
    subst he
    exact ⟨_, rfl, h.keep (by dsimp only; split <;> simp) (by simp [bit_putBit]) (by simp [bit_putBit]) rfl rfl rfl rfl h.srv rfl rfl rfl rfl rfl rfl rfl,
      (by first | exact hs | rfl), rfl, rfl, rfl, rfl⟩
  · rw [h.step_eq 0x50f (by decide) hw, w50f]
    generalize he : exec _ _ = o
    run44 he
    simp [hw, hs, h.st2] at he
    subst he
    exact ⟨_, rfl, h.keep (by simp) (by simp [bit_putBit, bit_setBit]) (by simp [bit_putBit, bit_setBit]) rfl rfl rfl rfl rfl rfl rfl rfl rfl rfl rfl rfl,
      (by first | exact hs | rfl), rfl, rfl, rfl, rfl⟩
  · rw [h.step_eq 0x508 (by decide) hw, w508]
    generalize he : exec _ _ = o
    run44 he
    have hz : c.IE &&& 30#8 &&& 192#8 = 0#8 := by rw [BitVec.and_assoc]; simp
    simp [hw, hz] at he
    subst he
    exact ⟨_, rfl, h.keep (by simp) (rfl) (rfl) rfl rfl rfl rfl h.srv rfl rfl rfl rfl rfl rfl rfl,
      (by first | exact hs | rfl), rfl, rfl, rfl, rfl⟩

end Verif.Ctl2844
