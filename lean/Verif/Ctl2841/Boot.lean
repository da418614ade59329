import Verif.Ctl2841.Idle

/-!
# The 2841: from power on to the idle loop
-/

namespace Verif.Ctl2841
open Verif.Ctl2844 hiding Boot BPos Rests powerOn Passes driveTags_off

/-- The control unit while its microprogram starts. -/
structure Boot (c : Ctx) : Prop where
  request : c.request = false
  opr : c.opr_in = false
  sta : c.sta_in = false
  srv : c.srv_in = false
  svc : c.svc_req = false
  addressed : c.addressed = false
  st0 : bit c.ST 0 = false
  st2 : bit c.ST 2 = false
  kl : c.KL = 0#8
  gl : c.GL = 0#8
  fc : c.FC = 0#8
  ft : c.FT = 0#8
  er3 : bit c.ER 3 = false
  er7 : bit c.ER 7 = false
  cur : c.cur = none
  quiet : Quiet c.disk
  sc : c.SC = 0#8

/-- The words of the start, the last first.  The microprogram goes through its first half twice. -/
def BPos (n : Nat) (c : Ctx) : Prop :=
  match n with
  | 18 => c.WX = 0x000#16 ∧ c.IG = 0#8 ∧ bit c.ST 7 = false
  | 17 => c.WX = 0x594#16 ∧ c.IG = 0#8 ∧ bit c.ST 7 = false
  | 16 => c.WX = 0x590#16 ∧ c.IG = 0#8 ∧ bit c.ST 7 = false
  | 15 => c.WX = 0x5b3#16 ∧ c.IG = 0#8 ∧ bit c.ST 7 = false
  | 14 => c.WX = 0x593#16 ∧ c.IG = 0#8 ∧ bit c.ST 7 = false ∧ c.d_nzero = false
  | 13 => c.WX = 0x5b9#16 ∧ c.IG = 0#8 ∧ bit c.ST 7 = false
  | 12 => c.WX = 0x5ba#16 ∧ c.IG = 0#8 ∧ bit c.ST 7 = false
  | 11 => c.WX = 0x54c#16 ∧ c.IG = 0#8 ∧ bit c.ST 7 = false
  | 10 => c.WX = 0x526#16 ∧ c.IG = 0#8 ∧ bit c.ST 7 = false ∧ c.d_nzero = false
  | 9 => c.WX = 0x537#16 ∧ c.IG = 0#8 ∧ bit c.ST 7 = false
  | 8 => c.WX = 0x594#16 ∧ c.IG = 0#8 ∧ bit c.ST 7 = true
  | 7 => c.WX = 0x591#16 ∧ c.IG = 0#8 ∧ bit c.ST 7 = true
  | 6 => c.WX = 0x59c#16 ∧ c.IG = 0#8 ∧ bit c.ST 7 = true ∧ c.carry = false
  | 5 => c.WX = 0x53d#16 ∧ c.IG = 0#8 ∧ bit c.ST 7 = true
  | 4 => c.WX = 0x590#16 ∧ c.IG = 0x08#8 ∧ bit c.ST 7 = true
  | 3 => c.WX = 0x5b3#16 ∧ c.IG = 0x08#8 ∧ bit c.ST 7 = true
  | 2 => c.WX = 0x593#16 ∧ c.IG = 0x08#8 ∧ bit c.ST 7 = true ∧ c.d_nzero = false
  | 1 => c.WX = 0x5b9#16 ∧ c.IG = 0x08#8 ∧ bit c.ST 7 = true
  | _ => False

theorem Boot.step_eq {c : Ctx} (h : Boot c) (n : Nat) (hn : n < 4096) (hw : c.WX = BitVec.ofNat 16 n) :
    step ros c = exec (ros n) { c with SC := 0#8, disk := turn c.disk } :=
  step_calm c n hn hw (by rw [h.fc]; rfl) h.quiet

/-- Bit 3 of a byte. -/
theorem er3_mask (x : B) (h : bit x 3 = false) : x &&& 0x10#8 = 0#8 := by
  have : ∀ x : B, bit x 3 = false → x &&& 0x10#8 = 0#8 := by decide +kernel
  exact this x h

/-- One microinstruction of the start. -/
theorem Boot.micro {c : Ctx} {n : Nat} (h : Boot c) (hp : BPos n c) :
    ∃ c', step ros c = .ok c' ∧ ((n = 1 ∧ Idle c') ∨ (1 < n ∧ Boot c' ∧ BPos (n - 1) c')) ∧ c'.addr = c.addr ∧
      c'.disk = turn c.disk ∧ c'.addressed = false ∧ c'.selected = c.selected := by
  match n, hp with
  | 18, ⟨hw, hg, h7⟩ =>
    rw [h.step_eq 0x000 (by decide) hw, w000]
    generalize he : exec _ _ = o
    run41 he
    simp [hw, h7] at he
    subst he
    exact ⟨_, rfl, .inr ⟨by decide,
      ⟨h.request, h.opr, h.sta, (by first | rfl | exact h.srv), (by first | rfl | exact h.svc), h.addressed, (by first | exact h.st0 | simp [bit_setBit, bit_clrBit, h.st0]), (by first | exact h.st2 | simp [bit_setBit, bit_clrBit, h.st2]), (by first | rfl | exact h.kl), (by first | rfl | exact h.gl), (by first | rfl | exact h.fc), (by first | rfl | exact h.ft), h.er3, h.er7, (by first | rfl | exact h.cur), h.quiet.turn, rfl⟩,
      ⟨rfl, (by first | rfl | exact hg), (by first | exact h7 | simp [bit_setBit, bit_clrBit, h7])⟩⟩, rfl, rfl, h.addressed, rfl⟩
  | 17, ⟨hw, hg, h7⟩ =>
    rw [h.step_eq 0x594 (by decide) hw, w594]
    generalize he : exec _ _ = o
    run41 he
    simp [hw, h7] at he
    subst he
    exact ⟨_, rfl, .inr ⟨by decide,
      ⟨h.request, h.opr, h.sta, (by first | rfl | exact h.srv), (by first | rfl | exact h.svc), h.addressed, (by first | exact h.st0 | simp [bit_setBit, bit_clrBit, h.st0]), (by first | exact h.st2 | simp [bit_setBit, bit_clrBit, h.st2]), (by first | rfl | exact h.kl), (by first | rfl | exact h.gl), (by first | rfl | exact h.fc), (by first | rfl | exact h.ft), h.er3, h.er7, (by first | rfl | exact h.cur), h.quiet.turn, rfl⟩,
      ⟨rfl, (by first | rfl | exact hg), (by first | exact h7 | simp [bit_setBit, bit_clrBit, h7])⟩⟩, rfl, rfl, h.addressed, rfl⟩
  | 16, ⟨hw, hg, h7⟩ =>
    rw [h.step_eq 0x590 (by decide) hw, w590]
    generalize he : exec _ _ = o
    run41 he
    simp [hw, h7, curOf, firstBit, bits00] at he
    subst he
    exact ⟨_, rfl, .inr ⟨by decide,
      ⟨h.request, h.opr, h.sta, (by first | rfl | exact h.srv), (by first | rfl | exact h.svc), h.addressed, (by first | exact h.st0 | simp [bit_setBit, bit_clrBit, h.st0]), (by first | exact h.st2 | simp [bit_setBit, bit_clrBit, h.st2]), (by first | rfl | exact h.kl), (by first | rfl | exact h.gl), (by first | rfl | exact h.fc), (by first | rfl | exact h.ft), h.er3, h.er7, (by first | rfl | exact h.cur), h.quiet.turn, rfl⟩,
      ⟨rfl, (by first | rfl | exact hg), (by first | exact h7 | simp [bit_setBit, bit_clrBit, h7])⟩⟩, rfl, rfl, h.addressed, rfl⟩
  | 15, ⟨hw, hg, h7⟩ =>
    rw [h.step_eq 0x5b3 (by decide) hw, w5b3]
    generalize he : exec _ _ = o
    run41 he
    simp [hw, h7, ieReg, Ctx.drive, h.cur] at he
    subst he
    exact ⟨_, rfl, .inr ⟨by decide,
      ⟨h.request, h.opr, h.sta, (by first | rfl | exact h.srv), (by first | rfl | exact h.svc), h.addressed, (by first | exact h.st0 | simp [bit_setBit, bit_clrBit, h.st0]), (by first | exact h.st2 | simp [bit_setBit, bit_clrBit, h.st2]), (by first | rfl | exact h.kl), (by first | rfl | exact h.gl), (by first | rfl | exact h.fc), (by first | rfl | exact h.ft), h.er3, h.er7, (by first | rfl | exact h.cur), h.quiet.turn, rfl⟩,
      ⟨rfl, (by first | rfl | exact hg), (by first | exact h7 | simp [bit_setBit, bit_clrBit, h7]), (by first | rfl | simp)⟩⟩, rfl, rfl, h.addressed, rfl⟩
  | 14, ⟨hw, hg, h7, hz⟩ =>
    rw [h.step_eq 0x593 (by decide) hw, w593]
    generalize he : exec _ _ = o
    run41 he
    simp [hw, h7, hz, gateReg, driveTags, driveUpdate, h.cur, h.gl, h.ft, h.fc] at he
    subst he
    exact ⟨_, rfl, .inr ⟨by decide,
      ⟨h.request, h.opr, h.sta, (by first | rfl | exact h.srv), (by first | rfl | exact h.svc), h.addressed, (by first | exact h.st0 | simp [bit_setBit, bit_clrBit, h.st0]), (by first | exact h.st2 | simp [bit_setBit, bit_clrBit, h.st2]), (by first | rfl | exact h.kl), (by first | rfl | exact h.gl), (by first | rfl | exact h.fc), (by first | rfl | exact h.ft), h.er3, h.er7, (by first | rfl | exact h.cur), h.quiet.turn, rfl⟩,
      ⟨rfl, (by first | rfl | exact hg), (by first | exact h7 | simp [bit_setBit, bit_clrBit, h7])⟩⟩, rfl, rfl, h.addressed, rfl⟩
  | 13, ⟨hw, hg, h7⟩ =>
    rw [h.step_eq 0x5b9 (by decide) hw, w5b9]
    generalize he : exec _ _ = o
    run41 he
    simp [hw, h7, gateReg, driveTags, driveUpdate, h.cur, h.gl, h.ft, h.fc] at he
    subst he
    exact ⟨_, rfl, .inr ⟨by decide,
      ⟨h.request, h.opr, h.sta, (by first | rfl | exact h.srv), (by first | rfl | exact h.svc), h.addressed, (by first | exact h.st0 | simp [bit_setBit, bit_clrBit, h.st0]), (by first | exact h.st2 | simp [bit_setBit, bit_clrBit, h.st2]), (by first | rfl | exact h.kl), (by first | rfl | exact h.gl), (by first | rfl | exact h.fc), (by first | rfl | exact h.ft), h.er3, h.er7, (by first | rfl | exact h.cur), h.quiet.turn, rfl⟩,
      ⟨rfl, (by first | rfl | exact hg), (by first | exact h7 | simp [bit_setBit, bit_clrBit, h7])⟩⟩, rfl, rfl, h.addressed, rfl⟩
  | 12, ⟨hw, hg, h7⟩ =>
    rw [h.step_eq 0x5ba (by decide) hw, w5ba]
    generalize he : exec _ _ = o
    run41 he
    simp [hw, h7] at he
    subst he
    exact ⟨_, rfl, .inr ⟨by decide,
      ⟨h.request, h.opr, h.sta, (by first | rfl | exact h.srv), (by first | rfl | exact h.svc), h.addressed, (by first | exact h.st0 | simp [bit_setBit, bit_clrBit, h.st0]), (by first | exact h.st2 | simp [bit_setBit, bit_clrBit, h.st2]), (by first | rfl | exact h.kl), (by first | rfl | exact h.gl), (by first | rfl | exact h.fc), (by first | rfl | exact h.ft), h.er3, h.er7, (by first | rfl | exact h.cur), h.quiet.turn, rfl⟩,
      ⟨rfl, (by first | rfl | exact hg), (by first | exact h7 | simp [bit_setBit, bit_clrBit, h7])⟩⟩, rfl, rfl, h.addressed, rfl⟩
  | 11, ⟨hw, hg, h7⟩ =>
    rw [h.step_eq 0x54c (by decide) hw, w54c]
    generalize he : exec _ _ = o
    run41 he
    simp [hw, h7] at he
    subst he
    exact ⟨_, rfl, .inr ⟨by decide,
      ⟨h.request, h.opr, h.sta, (by first | rfl | exact h.srv), (by first | rfl | exact h.svc), h.addressed, (by first | exact h.st0 | simp [bit_setBit, bit_clrBit, h.st0]), (by first | exact h.st2 | simp [bit_setBit, bit_clrBit, h.st2]), (by first | rfl | exact h.kl), (by first | rfl | exact h.gl), (by first | rfl | exact h.fc), (by first | rfl | exact h.ft), h.er3, h.er7, (by first | rfl | exact h.cur), h.quiet.turn, rfl⟩,
      ⟨rfl, (by first | rfl | exact hg), (by first | exact h7 | simp [bit_setBit, bit_clrBit, h7]), (by first | rfl | simp)⟩⟩, rfl, rfl, h.addressed, rfl⟩
  | 10, ⟨hw, hg, h7, hz⟩ =>
    rw [h.step_eq 0x526 (by decide) hw, w526]
    generalize he : exec _ _ = o
    run41 he
    simp [hw, h7, hz] at he
    subst he
    exact ⟨_, rfl, .inr ⟨by decide,
      ⟨h.request, h.opr, h.sta, (by first | rfl | exact h.srv), (by first | rfl | exact h.svc), h.addressed, (by first | exact h.st0 | simp [bit_setBit, bit_clrBit, h.st0]), (by first | exact h.st2 | simp [bit_setBit, bit_clrBit, h.st2]), (by first | rfl | exact h.kl), (by first | rfl | exact h.gl), (by first | rfl | exact h.fc), (by first | rfl | exact h.ft), h.er3, h.er7, (by first | rfl | exact h.cur), h.quiet.turn, rfl⟩,
      ⟨rfl, (by first | rfl | exact hg), (by first | exact h7 | simp [bit_setBit, bit_clrBit, h7])⟩⟩, rfl, rfl, h.addressed, rfl⟩
  | 9, ⟨hw, hg, h7⟩ =>
    rw [h.step_eq 0x537 (by decide) hw, w537]
    generalize he : exec _ _ = o
    run41 he
    simp [hw, h7, er3_mask _ h.er3] at he
    subst he
    exact ⟨_, rfl, .inr ⟨by decide,
      ⟨h.request, h.opr, h.sta, (by first | rfl | exact h.srv), (by first | rfl | exact h.svc), h.addressed, (by first | exact h.st0 | simp [bit_setBit, bit_clrBit, h.st0]), (by first | exact h.st2 | simp [bit_setBit, bit_clrBit, h.st2]), (by first | rfl | exact h.kl), (by first | rfl | exact h.gl), (by first | rfl | exact h.fc), (by first | rfl | exact h.ft), h.er3, h.er7, (by first | rfl | exact h.cur), h.quiet.turn, rfl⟩,
      ⟨rfl, (by first | rfl | exact hg), (by first | exact h7 | simp [bit_setBit, bit_clrBit, h7])⟩⟩, rfl, rfl, h.addressed, rfl⟩
  | 8, ⟨hw, hg, h7⟩ =>
    rw [h.step_eq 0x594 (by decide) hw, w594]
    generalize he : exec _ _ = o
    run41 he
    simp [hw, h7] at he
    subst he
    exact ⟨_, rfl, .inr ⟨by decide,
      ⟨h.request, h.opr, h.sta, (by first | rfl | exact h.srv), (by first | rfl | exact h.svc), h.addressed, (by first | exact h.st0 | simp [bit_setBit, bit_clrBit, h.st0]), (by first | exact h.st2 | simp [bit_setBit, bit_clrBit, h.st2]), (by first | rfl | exact h.kl), (by first | rfl | exact h.gl), (by first | rfl | exact h.fc), (by first | rfl | exact h.ft), h.er3, h.er7, (by first | rfl | exact h.cur), h.quiet.turn, rfl⟩,
      ⟨rfl, (by first | rfl | exact hg), (by first | exact h7 | simp [bit_setBit, bit_clrBit, h7])⟩⟩, rfl, rfl, h.addressed, rfl⟩
  | 7, ⟨hw, hg, h7⟩ =>
    rw [h.step_eq 0x591 (by decide) hw, w591]
    generalize he : exec _ _ = o
    run41 he
    simp [hw, h7, h.st2, h.kl] at he
    subst he
    exact ⟨_, rfl, .inr ⟨by decide,
      ⟨h.request, h.opr, h.sta, (by first | rfl | exact h.srv), (by first | rfl | exact h.svc), h.addressed, (by first | exact h.st0 | simp [bit_setBit, bit_clrBit, h.st0]), (by first | exact h.st2 | simp [bit_setBit, bit_clrBit, h.st2]), (by first | rfl | exact h.kl), (by first | rfl | exact h.gl), (by first | rfl | exact h.fc), (by first | rfl | exact h.ft), h.er3, h.er7, (by first | rfl | exact h.cur), h.quiet.turn, rfl⟩,
      ⟨rfl, (by first | rfl | exact hg), (by first | exact h7 | simp [bit_setBit, bit_clrBit, h7]), (by first | rfl | simp)⟩⟩, rfl, rfl, h.addressed, rfl⟩
  | 6, ⟨hw, hg, h7, hz⟩ =>
    rw [h.step_eq 0x59c (by decide) hw, w59c]
    generalize he : exec _ _ = o
    run41 he
    simp [hw, h7, hz] at he
    subst he
    exact ⟨_, rfl, .inr ⟨by decide,
      ⟨h.request, h.opr, h.sta, (by first | rfl | exact h.srv), (by first | rfl | exact h.svc), h.addressed, (by first | exact h.st0 | simp [bit_setBit, bit_clrBit, h.st0]), (by first | exact h.st2 | simp [bit_setBit, bit_clrBit, h.st2]), (by first | rfl | exact h.kl), (by first | rfl | exact h.gl), (by first | rfl | exact h.fc), (by first | rfl | exact h.ft), h.er3, h.er7, (by first | rfl | exact h.cur), h.quiet.turn, rfl⟩,
      ⟨rfl, (by first | rfl | exact hg), (by first | exact h7 | simp [bit_setBit, bit_clrBit, h7])⟩⟩, rfl, rfl, h.addressed, rfl⟩
  | 5, ⟨hw, hg, h7⟩ =>
    rw [h.step_eq 0x53d (by decide) hw, w53d]
    generalize he : exec _ _ = o
    run41 he
    simp [hw, h7, h.gl, h.svc, bits08] at he
    subst he
    exact ⟨_, rfl, .inr ⟨by decide,
      ⟨h.request, h.opr, h.sta, (by first | rfl | exact h.srv), (by first | rfl | exact h.svc), h.addressed, (by first | exact h.st0 | simp [bit_setBit, bit_clrBit, h.st0]), (by first | exact h.st2 | simp [bit_setBit, bit_clrBit, h.st2]), (by first | rfl | exact h.kl), (by first | rfl | exact h.gl), (by first | rfl | exact h.fc), (by first | rfl | exact h.ft), h.er3, h.er7, (by first | rfl | exact h.cur), h.quiet.turn, rfl⟩,
      ⟨rfl, (by first | rfl | exact hg), (by first | exact h7 | simp [bit_setBit, bit_clrBit, h7])⟩⟩, rfl, rfl, h.addressed, rfl⟩
  | 4, ⟨hw, hg, h7⟩ =>
    rw [h.step_eq 0x590 (by decide) hw, w590]
    generalize he : exec _ _ = o
    run41 he
    simp [hw, h7, curOf, firstBit, bits00] at he
    subst he
    exact ⟨_, rfl, .inr ⟨by decide,
      ⟨h.request, h.opr, h.sta, (by first | rfl | exact h.srv), (by first | rfl | exact h.svc), h.addressed, (by first | exact h.st0 | simp [bit_setBit, bit_clrBit, h.st0]), (by first | exact h.st2 | simp [bit_setBit, bit_clrBit, h.st2]), (by first | rfl | exact h.kl), (by first | rfl | exact h.gl), (by first | rfl | exact h.fc), (by first | rfl | exact h.ft), h.er3, h.er7, (by first | rfl | exact h.cur), h.quiet.turn, rfl⟩,
      ⟨rfl, (by first | rfl | exact hg), (by first | exact h7 | simp [bit_setBit, bit_clrBit, h7])⟩⟩, rfl, rfl, h.addressed, rfl⟩
  | 3, ⟨hw, hg, h7⟩ =>
    rw [h.step_eq 0x5b3 (by decide) hw, w5b3]
    generalize he : exec _ _ = o
    run41 he
    simp [hw, h7, ieReg, Ctx.drive, h.cur] at he
    subst he
    exact ⟨_, rfl, .inr ⟨by decide,
      ⟨h.request, h.opr, h.sta, (by first | rfl | exact h.srv), (by first | rfl | exact h.svc), h.addressed, (by first | exact h.st0 | simp [bit_setBit, bit_clrBit, h.st0]), (by first | exact h.st2 | simp [bit_setBit, bit_clrBit, h.st2]), (by first | rfl | exact h.kl), (by first | rfl | exact h.gl), (by first | rfl | exact h.fc), (by first | rfl | exact h.ft), h.er3, h.er7, (by first | rfl | exact h.cur), h.quiet.turn, rfl⟩,
      ⟨rfl, (by first | rfl | exact hg), (by first | exact h7 | simp [bit_setBit, bit_clrBit, h7]), (by first | rfl | simp)⟩⟩, rfl, rfl, h.addressed, rfl⟩
  | 2, ⟨hw, hg, h7, hz⟩ =>
    rw [h.step_eq 0x593 (by decide) hw, w593]
    generalize he : exec _ _ = o
    run41 he
    simp [hw, h7, hz, gateReg, driveTags, driveUpdate, h.cur, h.gl, h.ft, h.fc] at he
    subst he
    exact ⟨_, rfl, .inr ⟨by decide,
      ⟨h.request, h.opr, h.sta, (by first | rfl | exact h.srv), (by first | rfl | exact h.svc), h.addressed, (by first | exact h.st0 | simp [bit_setBit, bit_clrBit, h.st0]), (by first | exact h.st2 | simp [bit_setBit, bit_clrBit, h.st2]), (by first | rfl | exact h.kl), (by first | rfl | exact h.gl), (by first | rfl | exact h.fc), (by first | rfl | exact h.ft), h.er3, h.er7, (by first | rfl | exact h.cur), h.quiet.turn, rfl⟩,
      ⟨rfl, (by first | rfl | exact hg), (by first | exact h7 | simp [bit_setBit, bit_clrBit, h7])⟩⟩, rfl, rfl, h.addressed, rfl⟩
  | 1, ⟨hw, hg, h7⟩ =>
    rw [h.step_eq 0x5b9 (by decide) hw, w5b9]
    generalize he : exec _ _ = o
    run41 he
    simp [hw, h7, gateReg, driveTags, driveUpdate, h.cur, h.gl, h.ft, h.fc] at he
    subst he
    exact ⟨_, rfl, .inl ⟨rfl, ⟨.inr rfl, h.st0, h.st2, hg, h.request, h.opr, h.sta, h.svc, (by first | rfl | exact h.fc), h.srv, h.er3, h.er7, h7, (by first | rfl | exact h.ft),
      h.quiet.turn, rfl⟩⟩, rfl, rfl, h.addressed, rfl⟩

theorem BPos.still {c : Ctx} {n : Nat} (h : Boot c) (hp : BPos n c) : Still c := by
  have hg : c.IG = 0#8 ∨ c.IG = 0x08#8 := by
    match n, hp with
    | 18, hp => exact .inl hp.2.1
    | 17, hp => exact .inl hp.2.1
    | 16, hp => exact .inl hp.2.1
    | 15, hp => exact .inl hp.2.1
    | 14, hp => exact .inl hp.2.1
    | 13, hp => exact .inl hp.2.1
    | 12, hp => exact .inl hp.2.1
    | 11, hp => exact .inl hp.2.1
    | 10, hp => exact .inl hp.2.1
    | 9, hp => exact .inl hp.2.1
    | 8, hp => exact .inl hp.2.1
    | 7, hp => exact .inl hp.2.1
    | 6, hp => exact .inl hp.2.1
    | 5, hp => exact .inl hp.2.1
    | 4, hp => exact .inr hp.2.1
    | 3, hp => exact .inr hp.2.1
    | 2, hp => exact .inr hp.2.1
    | 1, hp => exact .inr hp.2.1
  exact ⟨hg, h.request, h.opr, h.sta, h.addressed, h.er3, h.er7, h.sc⟩

/-- A cycle which is not for this control unit, while its microprogram starts. -/
theorem Boot.pass {c : Ctx} {n : Nat} (h : Boot c) (hp : BPos n c) (bo t b : T) (ho : up t OPR_OUT = true)
    (ha : up t ADR_OUT = true → (bo &&& 0xf0#16) ≠ c.addr) :
    ∃ c', dev bo ⟨c, t, b⟩ = ⟨c', t &&& ~~~ADR_IN, b⟩ ∧ Boot c' ∧ BPos n c' ∧ c'.addr = c.addr ∧ c'.disk = c.disk ∧
      c'.selected = false := by
  obtain ⟨er, h1, h3, h7⟩ := (hp.still h).pass bo t b ho ha
  refine ⟨_, h1, ⟨h.request, h.opr, h.sta, h.srv, h.svc, rfl, h.st0, h.st2, h.kl, h.gl, h.fc, h.ft, h3, h7, h.cur, h.quiet, h.sc⟩,
    ?_, rfl, rfl, rfl⟩
  match n, hp with
  | 18, hp => exact hp
  | 17, hp => exact hp
  | 16, hp => exact hp
  | 15, hp => exact hp
  | 14, hp => exact hp
  | 13, hp => exact hp
  | 12, hp => exact hp
  | 11, hp => exact hp
  | 10, hp => exact hp
  | 9, hp => exact hp
  | 8, hp => exact hp
  | 7, hp => exact hp
  | 6, hp => exact hp
  | 5, hp => exact hp
  | 4, hp => exact hp
  | 3, hp => exact hp
  | 2, hp => exact hp
  | 1, hp => exact hp

/-- An event which is not for the control unit at `addr`: the channel is operational and there is
no address out, or one of another control unit. -/
def Passes (addr : T) : Ev → Prop
  | .micro => True
  | .bus out bo => up out OPR_OUT = true ∧ (up out ADR_OUT = true → (bo &&& 0xf0#16) ≠ addr)

/-- Idle, or at most `n` microinstructions before. -/
def Rests (n : Nat) (c : Ctx) : Prop := (Idle c ∧ c.addressed = false ∧ c.selected = false) ∨
  ∃ m, m ≤ n ∧ Boot c ∧ BPos m c ∧ c.selected = false

theorem tin_cleared (tin out : T) (hin : tin &&& outTags = 0#16) :
    ((tin ||| (out &&& outTags)) &&& ~~~ADR_IN) &&& inTags = tin &&& ~~~ADR_IN := by
  rw [BitVec.and_assoc, BitVec.and_comm (~~~ADR_IN) inTags, ← BitVec.and_assoc, tin_kept _ _ hin]

theorem Rests.next {n : Nat} {s : Line} (h : Rests n s.c) (ht : s.tin &&& outTags = 0#16) (e : Ev) (he : Passes s.c.addr e) :
    ∃ s', s.next e = .ok s' ∧ Rests (n - micros [e]) s'.c ∧ (s'.tin = s.tin ∨ s'.tin = s.tin &&& ~~~ADR_IN) ∧ s'.bin = s.bin ∧
      s'.c.addr = s.c.addr := by
  cases e with
  | micro =>
    rcases h with ⟨h, ha, hs⟩ | ⟨m, hm, h, hp, hs⟩
    · obtain ⟨c', h1, h2, h3, h4, h5, h6, _⟩ := h.micro hs
      refine ⟨{ s with c := c' }, ?_, .inl ⟨h2, h4.trans ha, h3⟩, .inl rfl, rfl, h5⟩
      show (step ros s.c).bind _ = _
      rw [h1]; rfl
    · obtain ⟨c', h1, h2, h3, h4, h5, h6⟩ := h.micro hp
      refine ⟨{ s with c := c' }, ?_, ?_, .inl rfl, rfl, h3⟩
      · show (step ros s.c).bind _ = _
        rw [h1]; rfl
      · rcases h2 with ⟨_, h2⟩ | ⟨_, h2, h2'⟩
        · exact .inl ⟨h2, h5, h6.trans hs⟩
        · exact .inr ⟨m - 1, by simp only [micros]; omega, h2, h2', h6.trans hs⟩
  | bus out bo =>
    obtain ⟨ho, ha⟩ := he
    have ho' : up (s.tin ||| (out &&& outTags)) OPR_OUT = true := by
      rw [up_opr] at ho ⊢
      rw [out_bit _ _ ht _ (by decide) (by decide), ho]
    have ha' : up (s.tin ||| (out &&& outTags)) ADR_OUT = true → (bo &&& 0xf0#16) ≠ s.c.addr := by
      intro hx
      refine ha ?_
      rw [up_adr] at hx ⊢
      rw [out_bit _ _ ht _ (by decide) (by decide)] at hx
      exact hx
    rcases h with ⟨h, had, hs⟩ | ⟨m, hm, h, hp, hs⟩
    · obtain ⟨c', h1, h2, h3, h4, h5, h6⟩ := h.pass bo _ s.bin ho' had ha'
      refine ⟨⟨c', s.tin &&& ~~~ADR_IN, s.bin⟩, ?_, .inl ⟨h2, h4, h3⟩, .inr rfl, rfl, h6⟩
      show Out.ok _ = _
      rw [h1]
      simp only
      rw [tin_cleared _ _ ht]
    · obtain ⟨c', h1, h2, h3, h4, h5, h6⟩ := h.pass hp bo _ s.bin ho' ha'
      refine ⟨⟨c', s.tin &&& ~~~ADR_IN, s.bin⟩, ?_, .inr ⟨m, by simp only [micros]; omega, h2, h3, h6⟩, .inr rfl, rfl, h4⟩
      show Out.ok _ = _
      rw [h1]
      simp only
      rw [tin_cleared _ _ ht]

theorem cleared_twice (t : T) : (t &&& ~~~ADR_IN) &&& ~~~ADR_IN = t &&& ~~~ADR_IN := by
  rw [BitVec.and_assoc, BitVec.and_self]

theorem cleared_in (t : T) (h : t &&& outTags = 0#16) : (t &&& ~~~ADR_IN) &&& outTags = 0#16 := by
  rw [BitVec.and_assoc, BitVec.and_comm (~~~ADR_IN) outTags, ← BitVec.and_assoc, h]
  simp

theorem Rests.run {n : Nat} {s : Line} (h : Rests n s.c) (ht : s.tin &&& outTags = 0#16) (es : List Ev)
    (he : ∀ e ∈ es, Passes s.c.addr e) :
    ∃ s', s.run es = .ok s' ∧ Rests (n - micros es) s'.c ∧ (s'.tin = s.tin ∨ s'.tin = s.tin &&& ~~~ADR_IN) ∧ s'.bin = s.bin ∧
      s'.c.addr = s.c.addr := by
  induction es generalizing s n with
  | nil => exact ⟨s, rfl, by simpa [micros] using h, .inl rfl, rfl, rfl⟩
  | cons e es ih =>
    obtain ⟨s1, h1, h2, h3, h4, h5⟩ := h.next ht e (he e (List.mem_cons_self ..))
    have ht1 : s1.tin &&& outTags = 0#16 := by
      rcases h3 with h3 | h3
      · rw [h3]; exact ht
      · rw [h3]; exact cleared_in _ ht
    obtain ⟨s2, k1, k2, k3, k4, k5⟩ := ih h2 ht1 (fun x hx => by rw [h5]; exact he x (List.mem_cons_of_mem _ hx))
    refine ⟨s2, ?_, ?_, ?_, k4.trans h4, k5.trans h5⟩
    · show (s.next e).bind _ = _
      rw [h1]
      exact k1
    · have : n - micros [e] - micros es = n - micros (e :: es) := by
        cases e <;> simp only [micros] <;> omega
      rw [← this]
      exact k2
    · rcases h3 with h3 | h3 <;> rcases k3 with k3 | k3 <;> rw [k3, h3]
      · exact .inl rfl
      · exact .inr rfl
      · exact .inr rfl
      · exact .inr (cleared_twice _)

theorem Rests.idle {c : Ctx} (h : Rests 0 c) : Idle c ∧ c.addressed = false ∧ c.selected = false := by
  rcases h with h | ⟨m, hm, _, hp, _⟩
  · exact h
  · obtain rfl : m = 0 := by omega
    exact absurd hp (by simp [BPos])

/-- The control unit as `model2841_init` and the attachment of the drives leave it. -/
def powerOn (addr : T) (disk : BitVec 3 → Option Dasd.S) : Ctx := { init addr with disk := disk }

theorem powerOn_rests (addr : T) (disk : BitVec 3 → Option Dasd.S) (hq : Quiet disk) : Rests 18 (powerOn addr disk) :=
  .inr ⟨18, by omega, ⟨rfl, rfl, rfl, rfl, rfl, rfl, by show bit 0#8 0 = false; decide, by show bit 0#8 2 = false; decide, rfl, rfl,
    rfl, rfl, by show bit 0#8 3 = false; decide, by show bit 0#8 7 = false; decide, rfl, hq, rfl⟩,
    ⟨rfl, rfl, by show bit 0#8 7 = false; decide⟩, rfl⟩

end Verif.Ctl2841
