import Verif.Ctl2844.Select

/-!
# The 2844: from power on to the idle loop
-/

namespace Verif.Ctl2844

/-- The control unit while its microprogram starts. -/
structure Boot (c : Ctx) : Prop where
  ig : c.IG = 0#8
  gl : c.GL = 0#8
  request : c.request = false
  opr : c.opr_in = false
  sta : c.sta_in = false
  srv : c.srv_in = false
  svc : c.svc_req = false
  addressed : c.addressed = false
  st2 : bit c.ST 2 = false
  st7 : c.WX ≠ 0x544#16 → bit c.ST 7 = false
  fc : c.FC = 0#8
  ft : c.FT = 0#8
  er3 : bit c.ER 3 = false
  quiet : Quiet c.disk
  sc : c.SC = 0#8

/-- The words of the start, the last first. -/
def BPos (n : Nat) (c : Ctx) : Prop :=
  match n with
  | 11 => c.WX = 0x000#16
  | 10 => c.WX = 0x5b5#16 ∧ c.carry = false
  | 9 => c.WX = 0x5b8#16
  | 8 => c.WX = 0x5b9#16 ∧ bit c.ST 0 = false
  | 7 => c.WX = 0x5c0#16 ∧ bit c.ST 0 = false
  | 6 => c.WX = 0x518#16 ∧ c.OP = 0#8 ∧ bit c.ST 0 = false
  | 5 => c.WX = 0x534#16 ∧ c.OP = 0#8 ∧ bit c.ST 0 = false
  | 4 => c.WX = 0x538#16 ∧ c.OP = 0#8 ∧ bit c.ST 0 = false
  | 3 => c.WX = 0x53c#16 ∧ c.OP = 0#8 ∧ bit c.ST 0 = false
  | 2 => c.WX = 0x540#16 ∧ bit c.ST 0 = false
  | 1 => c.WX = 0x544#16 ∧ bit c.ST 0 = false ∧ c.UR &&& 0x0f#8 = 0#8
  | _ => False

theorem bits00 (i : Nat) : bit 0#8 i = false := by unfold bit; simp

theorem Boot.step_eq {c : Ctx} (h : Boot c) (n : Nat) (hn : n < 4096) (hw : c.WX = BitVec.ofNat 16 n) :
    step ros c = exec (ros n) { c with SC := 0#8, disk := turn c.disk } :=
  step_calm c n hn hw (by rw [h.fc]; rfl) h.quiet

theorem driveTags_off (c : Ctx) (h : c.FT &&& 1#8 = 0#8) : driveTags c = .ok c := by
  unfold driveTags
  cases hd : c.disk c.unit with
  | none => simp [h]
  | some d =>
    have h1 : c.FT.toNat &&& 1 = 0 := by
      have := congrArg BitVec.toNat h
      simpa [BitVec.toNat_and] using this
    have : Dasd.setTags d c.FT.toNat c.FC.toNat = .ok d := by
      unfold Dasd.setTags
      rw [if_pos h1]
    dsimp only
    rw [this]
    show Out.ok (setDisk c c.unit d) = _
    unfold setDisk
    congr 1
    have : (fun j => if j = c.unit then some d else c.disk j) = c.disk := by
      funext j
      split
      · next h => rw [h, hd]
      · rfl
    rw [this]

/-- One microinstruction of the start. -/
theorem Boot.micro {c : Ctx} {n : Nat} (h : Boot c) (hp : BPos n c) :
    ∃ c', step ros c = .ok c' ∧ ((n = 1 ∧ Idle c') ∨ (1 < n ∧ Boot c' ∧ BPos (n - 1) c')) ∧ c'.addr = c.addr ∧
      c'.disk = turn c.disk ∧ c'.addressed = false ∧ c'.selected = c.selected := by
  have h7 := h.st7
  match n, hp with
  | 11, hw =>
    replace hw : c.WX = _ := hw
    replace h7 := h7 (by rw [hw]; decide)
    rw [h.step_eq 0x000 (by decide) hw, w000]
    generalize he : exec _ _ = o
    run44 he
    simp [hw] at he
    subst he
    exact ⟨_, rfl, .inr ⟨by decide, ⟨h.ig, h.gl, h.request, h.opr, h.sta, h.srv, h.svc, h.addressed, h.st2,
      fun _ => h7, h.fc, h.ft, h.er3, h.quiet.turn, rfl⟩, by simp [BPos]⟩, rfl, rfl, h.addressed, rfl⟩
  | 10, ⟨hw, hp⟩ =>
    replace hw : c.WX = _ := hw
    replace h7 := h7 (by rw [hw]; decide)
    rw [h.step_eq 0x5b5 (by decide) hw, w5b5]
    generalize he : exec _ _ = o
    run44 he
    simp [hw, hp] at he
    subst he
    exact ⟨_, rfl, .inr ⟨by decide, ⟨h.ig, h.gl, h.request, h.opr, h.sta, h.srv, h.svc, h.addressed, by simp [bit_setBit]; exact h.st2,
      fun _ => by simp [bit_setBit]; exact h7, h.fc, h.ft, h.er3, h.quiet.turn, rfl⟩, rfl⟩, rfl, rfl, h.addressed, rfl⟩
  | 9, hw =>
    replace hw : c.WX = _ := hw
    replace h7 := h7 (by rw [hw]; decide)
    rw [h.step_eq 0x5b8 (by decide) hw, w5b8]
    generalize he : exec _ _ = o
    run44 he
    simp [hw, h.ft, gateReg, driveTags_off] at he
    subst he
    exact ⟨_, rfl, .inr ⟨by decide, ⟨h.ig, h.gl, h.request, h.opr, h.sta, h.srv, h.svc, h.addressed, by simp [bit_clrBit]; exact h.st2,
      fun _ => by simp [bit_clrBit]; exact h7, h.fc, rfl, h.er3, h.quiet.turn, rfl⟩, ⟨rfl, by simp [bit_clrBit]⟩⟩, rfl, rfl, h.addressed, rfl⟩
  | 8, ⟨hw, h0⟩ =>
    replace hw : c.WX = _ := hw
    replace h7 := h7 (by rw [hw]; decide)
    rw [h.step_eq 0x5b9 (by decide) hw, w5b9]
    generalize he : exec _ _ = o
    run44 he
    simp [hw, h7] at he
    subst he
    exact ⟨_, rfl, .inr ⟨by decide, ⟨h.ig, h.gl, h.request, h.opr, h.sta, h.srv, h.svc, h.addressed, h.st2,
      fun _ => h7, h.fc, h.ft, h.er3, h.quiet.turn, rfl⟩, ⟨rfl, h0⟩⟩, rfl, rfl, h.addressed, rfl⟩
  | 7, ⟨hw, h0⟩ =>
    replace hw : c.WX = _ := hw
    replace h7 := h7 (by rw [hw]; decide)
    rw [h.step_eq 0x5c0 (by decide) hw, w5c0]
    generalize he : exec _ _ = o
    run44 he
    simp [hw] at he
    subst he
    exact ⟨_, rfl, .inr ⟨by decide, ⟨h.ig, h.gl, h.request, h.opr, h.sta, h.srv, h.svc, h.addressed, h.st2,
      fun _ => h7, h.fc, h.ft, h.er3, h.quiet.turn, rfl⟩, ⟨rfl, rfl, h0⟩⟩, rfl, rfl, h.addressed, rfl⟩
  | 6, ⟨hw, ho, h0⟩ =>
    replace hw : c.WX = _ := hw
    replace h7 := h7 (by rw [hw]; decide)
    rw [h.step_eq 0x518 (by decide) hw, w518]
    generalize he : exec _ _ = o
    run44 he
    simp [hw, ho, bits00] at he
    subst he
    exact ⟨_, rfl, .inr ⟨by decide, ⟨h.ig, h.gl, h.request, h.opr, h.sta, h.srv, h.svc, h.addressed, by simp [bit_setBit]; exact h.st2,
      fun _ => by simp [bit_setBit]; exact h7, h.fc, h.ft, h.er3, h.quiet.turn, rfl⟩, ⟨rfl, rfl, by simp [bit_setBit]; exact h0⟩⟩, rfl, rfl, h.addressed, rfl⟩
  | 5, ⟨hw, ho, h0⟩ =>
    replace hw : c.WX = _ := hw
    replace h7 := h7 (by rw [hw]; decide)
    rw [h.step_eq 0x534 (by decide) hw, w534]
    generalize he : exec _ _ = o
    run44 he
    simp [hw, ho, bits00] at he
    subst he
    exact ⟨_, rfl, .inr ⟨by decide, ⟨h.ig, h.gl, h.request, h.opr, h.sta, h.srv, h.svc, h.addressed, h.st2,
      fun _ => h7, h.fc, h.ft, h.er3, h.quiet.turn, rfl⟩, ⟨rfl, rfl, h0⟩⟩, rfl, rfl, h.addressed, rfl⟩
  | 4, ⟨hw, ho, h0⟩ =>
    replace hw : c.WX = _ := hw
    replace h7 := h7 (by rw [hw]; decide)
    rw [h.step_eq 0x538 (by decide) hw, w538]
    generalize he : exec _ _ = o
    run44 he
    simp [hw, ho, bits00] at he
    subst he
    exact ⟨_, rfl, .inr ⟨by decide, ⟨h.ig, h.gl, h.request, h.opr, h.sta, h.srv, h.svc, h.addressed, h.st2,
      fun _ => h7, h.fc, h.ft, h.er3, h.quiet.turn, rfl⟩, ⟨rfl, rfl, h0⟩⟩, rfl, rfl, h.addressed, rfl⟩
  | 3, ⟨hw, ho, h0⟩ =>
    replace hw : c.WX = _ := hw
    replace h7 := h7 (by rw [hw]; decide)
    rw [h.step_eq 0x53c (by decide) hw, w53c]
    generalize he : exec _ _ = o
    run44 he
    simp [hw, ho, bits00] at he
    subst he
    exact ⟨_, rfl, .inr ⟨by decide, ⟨h.ig, h.gl, h.request, h.opr, h.sta, h.srv, h.svc, h.addressed, h.st2,
      fun _ => h7, h.fc, h.ft, h.er3, h.quiet.turn, rfl⟩, ⟨rfl, h0⟩⟩, rfl, rfl, h.addressed, rfl⟩
  | 2, ⟨hw, h0⟩ =>
    replace hw : c.WX = _ := hw
    replace h7 := h7 (by rw [hw]; decide)
    rw [h.step_eq 0x540 (by decide) hw, w540]
    generalize he : exec _ _ = o
    run44 he
    simp [hw, h7] at he
    subst he
    exact ⟨_, rfl, .inr ⟨by decide, ⟨h.ig, h.gl, h.request, h.opr, h.sta, h.srv, h.svc, h.addressed, by simp [bit_setBit]; exact h.st2,
      fun hx => absurd rfl hx, h.fc, h.ft, h.er3, h.quiet.turn, rfl⟩, ⟨rfl, by simp [bit_setBit]; exact h0, by simp [BitVec.and_assoc]⟩⟩, rfl, rfl, h.addressed, rfl⟩
  | 1, ⟨hw, h0, hu⟩ =>
    replace hw : c.WX = _ := hw
    rw [h.step_eq 0x544 (by decide) hw, w544]
    generalize he : exec _ _ = o
    run44 he
    simp [hw, h.gl, h.svc, bits08] at he
    subst he
    exact ⟨_, rfl, .inl ⟨rfl, ⟨.inl rfl, by simp [bit_setBit]; exact h0, by simp [bit_setBit]; exact h.st2, rfl, h.request, h.opr, h.sta,
      h.srv, by first | rfl | exact h.svc, h.fc, by simp [h.ft], h.er3, hu, h.quiet.turn, rfl⟩⟩, rfl, rfl, h.addressed, rfl⟩

/-- A cycle which is not for this control unit, while its microprogram starts. -/
theorem Boot.pass {c : Ctx} {n : Nat} (h : Boot c) (hp : BPos n c) (bo t b : T) (ho : up t OPR_OUT = true)
    (ha : up t ADR_OUT = false ∨ takes c bo = false) :
    ∃ c', dev bo ⟨c, t, b⟩ = ⟨c', t, b⟩ ∧ Boot c' ∧ BPos n c' ∧ c'.addr = c.addr ∧ c'.disk = c.disk ∧ c'.selected = false := by
  have hn := noReset ho
  have key : ∃ er, dev bo ⟨c, t, b⟩ =
      ⟨{ c with bus_out := bo.setWidth 8, tags := t, selected := false, addressed := false, ER := er }, t, b⟩ ∧ bit er 3 = false := by
    generalize he : dev bo ⟨c, t, b⟩ = o
    cases hat : up t ADR_OUT with
    | true =>
      have htk : takes c bo = false := by
        rcases ha with ha | ha
        · rw [hat] at ha; cases ha
        · exact ha
      obtain ⟨h1, h2⟩ := Bool.or_eq_false_iff.1 htk
      replace h1 := of_decide_eq_false h1
      bus44 he [hn, hat, takes, h1, h2, h.ig, bits00, h.sta, h.opr, h.request, h.sc]
      subst he
      exact ⟨c.ER, by simp [h.ig, h.sta, h.opr, h.request, h.sc], h.er3⟩
    | false =>
      bus44 he [hn, hat, h.addressed, h.ig, bits00, h.sta, h.opr, h.request, h.sc]
      subst he
      exact ⟨clrBit c.ER 1, by simp [h.ig, h.sta, h.opr, h.request, h.sc], by simp [bit_clrBit, h.er3]⟩
  obtain ⟨er, h1, h2⟩ := key
  refine ⟨_, h1, ⟨h.ig, h.gl, h.request, h.opr, h.sta, h.srv, h.svc, rfl, h.st2, h.st7, h.fc, h.ft, h2, h.quiet, h.sc⟩, ?_, rfl, rfl, rfl⟩
  match n, hp with
  | 11, hp => exact hp
  | 10, hp => exact hp
  | 9, hp => exact hp
  | 8, hp => exact hp
  | 7, hp => exact hp
  | 6, hp => exact hp
  | 5, hp => exact hp
  | 4, hp => exact hp
  | 3, hp => exact hp
  | 2, hp => exact hp
  | 1, hp => exact hp

/-- A cycle which is not for this control unit: the channel is operational and there is no
address out, or one which the control unit does not take. -/
def Passes (addr : T) : Ev → Prop
  | .micro => True
  | .bus out bo => up out OPR_OUT = true ∧
      (up out ADR_OUT = false ∨ ((bo &&& 0xf0#16) ≠ addr ∧ parityOk bo = false))

theorem out_bit (tin out : T) (hin : tin &&& outTags = 0#16) (i : Nat) (h1 : 8 ≤ i) (h2 : i < 16) :
    (tin ||| (out &&& outTags)).getLsbD i = out.getLsbD i := by
  have h3 : outTags.getLsbD i = true := by
    have : ∀ i : Fin 16, 8 ≤ i.val → outTags.getLsbD i.val = true := by decide
    exact this ⟨i, h2⟩ h1
  have h4 : tin.getLsbD i = false := by
    have := congrArg (fun x => x.getLsbD i) hin
    simpa [BitVec.getLsbD_and, h3] using this
  rw [BitVec.getLsbD_or, BitVec.getLsbD_and, h3, h4]
  simp

theorem tin_kept (tin out : T) (hin : tin &&& outTags = 0#16) : (tin ||| (out &&& outTags)) &&& inTags = tin := by
  apply BitVec.eq_of_getLsbD_eq
  intro i hi
  have hx : ∀ i : Fin 16, outTags.getLsbD i.val = !inTags.getLsbD i.val := by decide
  have hx := hx ⟨i, hi⟩
  have h4 := congrArg (fun x => x.getLsbD i) hin
  simp only [BitVec.getLsbD_and, BitVec.getLsbD_or] at h4 hx ⊢
  rw [hx] at h4 ⊢
  cases hy : inTags.getLsbD i <;> rw [hy] at h4 <;> simp at h4 ⊢
  exact h4

/-- Idle, or at most `n` microinstructions before. -/
def Rests (n : Nat) (c : Ctx) : Prop := (Idle c ∧ c.addressed = false ∧ c.selected = false) ∨
  ∃ m, m ≤ n ∧ Boot c ∧ BPos m c ∧ c.selected = false

theorem Rests.next {n : Nat} {s : Line} (h : Rests n s.c) (ht : s.tin &&& outTags = 0#16) (e : Ev) (he : Passes s.c.addr e) :
    ∃ s', s.next e = .ok s' ∧ Rests (n - micros [e]) s'.c ∧ s'.tin = s.tin ∧ s'.bin = s.bin ∧ s'.c.addr = s.c.addr ∧
      ∀ i, (s'.c.disk i).isSome = (s.c.disk i).isSome := by
  cases e with
  | micro =>
    rcases h with ⟨h, ha, hs⟩ | ⟨m, hm, h, hp, hs⟩
    · obtain ⟨c', h1, h2, h3, h4, h5, h6, _⟩ := h.micro hs
      refine ⟨{ s with c := c' }, ?_, .inl ⟨h2, h4.trans ha, h3⟩, rfl, rfl, h5, fun i => ?_⟩
      · show (step ros s.c).bind _ = _
        rw [h1]; rfl
      · show (c'.disk i).isSome = _
        rw [h6, turn_isSome]
    · obtain ⟨c', h1, h2, h3, h4, h5, h6⟩ := h.micro hp
      refine ⟨{ s with c := c' }, ?_, ?_, rfl, rfl, h3, fun i => ?_⟩
      · show (step ros s.c).bind _ = _
        rw [h1]; rfl
      · rcases h2 with ⟨_, h2⟩ | ⟨_, h2, h2'⟩
        · exact .inl ⟨h2, h5, h6.trans hs⟩
        · exact .inr ⟨m - 1, by simp only [micros]; omega, h2, h2', h6.trans hs⟩
      · show (c'.disk i).isSome = _
        rw [h4, turn_isSome]
  | bus out bo =>
    obtain ⟨ho, ha⟩ := he
    have ho' : up (s.tin ||| (out &&& outTags)) OPR_OUT = true := by
      rw [up_opr] at ho ⊢
      rw [out_bit _ _ ht _ (by decide) (by decide), ho]
    have ha' : up (s.tin ||| (out &&& outTags)) ADR_OUT = false ∨ takes s.c bo = false := by
      rcases ha with ha | ⟨h1, h2⟩
      · left
        rw [up_adr] at ha ⊢
        rw [out_bit _ _ ht _ (by decide) (by decide), ha]
      · right
        unfold takes
        simp [h1, h2]
    rcases h with ⟨h, had, hs⟩ | ⟨m, hm, h, hp, hs⟩
    · have ha2 : (up (s.tin ||| (out &&& outTags)) ADR_OUT = true ∧ takes s.c bo = false) ∨
          (up (s.tin ||| (out &&& outTags)) ADR_OUT = false ∧ s.c.addressed = false) := by
        cases hx : up (s.tin ||| (out &&& outTags)) ADR_OUT with
        | false => exact .inr ⟨rfl, had⟩
        | true =>
          rcases ha' with ha' | ha'
          · rw [hx] at ha'; cases ha'
          · exact .inl ⟨rfl, ha'⟩
      obtain ⟨c', h1, h2, h3, h4, h5, h6⟩ := h.pass bo _ s.bin ho' ha2
      refine ⟨⟨c', s.tin, s.bin⟩, ?_, .inl ⟨h2, h4, h3⟩, rfl, rfl, h6, fun i => by show (c'.disk i).isSome = _; rw [h5]⟩
      show Out.ok _ = _
      rw [h1]
      simp only
      rw [tin_kept _ _ ht]
    · obtain ⟨c', h1, h2, h3, h4, h5, h6⟩ := h.pass hp bo _ s.bin ho' ha'
      refine ⟨⟨c', s.tin, s.bin⟩, ?_, .inr ⟨m, by simp only [micros]; omega, h2, h3, h6⟩, rfl, rfl, h4,
        fun i => by show (c'.disk i).isSome = _; rw [h5]⟩
      show Out.ok _ = _
      rw [h1]
      simp only
      rw [tin_kept _ _ ht]

theorem Rests.run {n : Nat} {s : Line} (h : Rests n s.c) (ht : s.tin &&& outTags = 0#16) (es : List Ev)
    (he : ∀ e ∈ es, Passes s.c.addr e) :
    ∃ s', s.run es = .ok s' ∧ Rests (n - micros es) s'.c ∧ s'.tin = s.tin ∧ s'.bin = s.bin ∧ s'.c.addr = s.c.addr ∧
      ∀ i, (s'.c.disk i).isSome = (s.c.disk i).isSome := by
  induction es generalizing s n with
  | nil => exact ⟨s, rfl, by simpa [micros] using h, rfl, rfl, rfl, fun _ => rfl⟩
  | cons e es ih =>
    obtain ⟨s1, h1, h2, h3, h4, h5, h6⟩ := h.next ht e (he e (List.mem_cons_self ..))
    obtain ⟨s2, k1, k2, k3, k4, k5, k6⟩ := ih h2 (by rw [h3]; exact ht)
      (fun x hx => by rw [h5]; exact he x (List.mem_cons_of_mem _ hx))
    refine ⟨s2, ?_, ?_, k3.trans h3, k4.trans h4, k5.trans h5, fun i => (k6 i).trans (h6 i)⟩
    · show (s.next e).bind _ = _
      rw [h1]
      exact k1
    · have : n - micros [e] - micros es = n - micros (e :: es) := by
        cases e <;> simp only [micros] <;> omega
      rw [← this]
      exact k2

theorem Rests.idle {c : Ctx} (h : Rests 0 c) : Idle c ∧ c.addressed = false ∧ c.selected = false := by
  rcases h with h | ⟨m, hm, _, hp, _⟩
  · exact h
  · obtain rfl : m = 0 := by omega
    exact absurd hp (by simp [BPos])

/-- The control unit as `model2844_init` leaves it, with drives attached. -/
def powerOn (addr : T) (disk : BitVec 3 → Option Dasd.S) : Ctx := { init addr with disk := disk }

theorem powerOn_rests (addr : T) (disk : BitVec 3 → Option Dasd.S) (hq : Quiet disk) : Rests 11 (powerOn addr disk) :=
  .inr ⟨11, Nat.le_refl _, ⟨rfl, rfl, rfl, rfl, rfl, rfl, rfl, rfl, bits00 _, fun _ => bits00 _, rfl, rfl,
    bits00 _, hq, rfl⟩, rfl, rfl⟩

end Verif.Ctl2844
