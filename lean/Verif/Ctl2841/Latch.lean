import Verif.Ctl2841.Props

/-!
# The 2841: a selection the channel withdraws (C154)
-/

namespace Verif.Ctl2841
open Verif.Ctl2844 hiding Ctx.regs Regs Base Pos Calm Sel Stage LStage bus_select bus_adrIn Start Idle Line Waits.run takes_poll
  bus_offer bus_waits powerOn init dev IF Ctx ros step Passes Rests Boot BPos example_idle

/-- A cycle in which the control unit is offered its address, or still holds it, without select out. -/
theorem bus_hold {c : Ctx} (h : Idle c) (bo t b : T) (ho : up t OPR_OUT = true) (hs : up t SEL_OUT = false)
    (ha : (up t ADR_OUT = true ∧ (bo &&& 0xf0#16) = c.addr) ∨ (up t ADR_OUT = false ∧ c.addressed = true)) :
    ∃ c' t', dev bo ⟨c, t, b⟩ = ⟨c', t', b⟩ ∧ Idle c' ∧ c'.addressed = true ∧ c'.selected = false ∧ c'.addr = c.addr ∧
      up t' ADR_IN = false ∧ up t' STA_IN = false ∧ t'.getLsbD 4 = false := by
  have hn := noReset ho
  generalize he : dev bo ⟨c, t, b⟩ = o
  rcases ha with ⟨ha, hk⟩ | ⟨ha, had⟩
  · cases hp : parityOk bo <;> cases ht : c.tr_1 <;>
    bus41 he [hn, adr_clr, sel_clr, ha, hs, hk, hp, h.ig, bits08, h.sta, h.opr, h.request, h.svc, h.srv, h.sc, ht] <;> subst he
    all_goals
      refine ⟨_, _, rfl, ?_⟩
      refine ⟨⟨h.loop, h.st0, h.st2, rfl, rfl, rfl, rfl, rfl, h.fc, rfl, ?_, ?_, h.st7, h.ft, h.quiet, rfl⟩, rfl, rfl, ?_, ?_, ?_, ?_⟩
      · simp [bit_putBit, bit_setBit, h.er3]
      · simp [bit_putBit, bit_setBit, h.er7]
      · first | exact hk | rfl
      · tags44
      · tags44
      · simp [SRV_IN]
  · cases hp : parityOk bo <;> cases ht : c.tr_1 <;>
    bus41 he [hn, adr_clr, sel_clr, ha, had, hs, hp, h.ig, bits08, h.sta, h.opr, h.request, h.svc, h.srv, h.sc, ht] <;> subst he
    all_goals
      refine ⟨_, _, rfl, ?_⟩
      refine ⟨⟨h.loop, h.st0, h.st2, rfl, rfl, rfl, rfl, rfl, h.fc, rfl, ?_, ?_, h.st7, h.ft, h.quiet, rfl⟩, rfl, rfl, ?_, ?_, ?_, ?_⟩
      · simp [bit_putBit, bit_clrBit, h.er3]
      · simp [bit_putBit, bit_clrBit, h.er7]
      · first | rfl
      · tags44
      · tags44
      · simp [SRV_IN]

/-- It waits on, holding the address. -/
theorem holds_run {s : Line} (h : Idle s.c) (had : s.c.addressed = true) (hs : s.c.selected = false) (ht : s.tin &&& outTags = 0#16)
    (es : List Ev) (he : ∀ e ∈ es, Waits e) :
    ∃ s', s.run es = .ok s' ∧ Idle s'.c ∧ s'.c.addressed = true ∧ s'.c.selected = false ∧ s'.tin &&& outTags = 0#16 := by
  induction es generalizing s with
  | nil => exact ⟨s, rfl, h, had, hs, ht⟩
  | cons e es ih =>
    have h1 : ∃ s1, s.next e = .ok s1 ∧ Idle s1.c ∧ s1.c.addressed = true ∧ s1.c.selected = false ∧ s1.tin &&& outTags = 0#16 := by
      cases e with
      | micro =>
        obtain ⟨c', k1, k2, k5, k4, _⟩ := h.micro hs
        exact ⟨{ s with c := c' }, by unfold Line.next; rw [k1]; rfl, k2, k4.trans had, k5, ht⟩
      | bus out bo =>
        obtain ⟨w1, w2, w3⟩ := he _ List.mem_cons_self
        obtain ⟨c', t', k1, k2, k3, k6, _⟩ := bus_hold h bo (s.tin ||| (out &&& outTags)) s.bin (opr_line _ _ w1)
          (by rw [up_sel, out_bit _ _ ht 15 (by decide) (by decide), ← up_sel]; exact w3)
          (.inr ⟨by rw [up_adr, out_bit _ _ ht 14 (by decide) (by decide), ← up_adr]; exact w2, had⟩)
        refine ⟨_, rfl, ?_⟩
        rw [k1]
        exact ⟨k2, k3, k6, cut_out _⟩
    obtain ⟨s1, n1, n2, n3, n5, n4⟩ := h1
    obtain ⟨s', m1, m2⟩ := ih n2 n3 n5 n4 fun e hx => he e (List.mem_cons_of_mem _ hx)
    refine ⟨s', ?_, m2⟩
    show (s.next e).bind _ = _
    rw [n1]
    exact m1

theorem takes_poll {c : Ctx} (h : Idle c) (had : c.addressed = true) (bo t b : T) (ho : up t OPR_OUT = true)
    (ha : up t ADR_OUT = false) (hs : up t SEL_OUT = true) :
    up (dev bo ⟨c, t, b⟩).tags SEL_OUT = false ∧ (dev bo ⟨c, t, b⟩).c.selected = true := by
  have hn := noReset ho
  generalize he : dev bo ⟨c, t, b⟩ = o
  cases hp : parityOk bo <;> cases ht : c.tr_1 <;>
    bus41 he [hn, adr_clr, sel_clr, ha, hs, had, hp, h.ig, bits08, h.sta, h.opr, h.request, h.sc, h.svc, h.srv, ht] <;> subst he
  all_goals
    refine ⟨?_, rfl⟩
    tags44

/-- C154. In general the control unit keeps an address it was offered.  The channel puts its address
up without select out and takes it off again, and anything may happen without address out and
select out; when the channel then polls the control units, this one takes select out and counts as
selected, although it has nothing to report. -/
theorem C154_violated_takes_poll {s : Line} (h : Idle s.c) (ht : s.tin &&& outTags = 0#16) (bo : T)
    (hk : (bo &&& 0xf0#16) = s.c.addr) (offer : T) (o1 : up offer OPR_OUT = true)
    (o2 : up offer ADR_OUT = true) (o3 : up offer SEL_OUT = false) (es : List Ev) (he : ∀ e ∈ es, Waits e) :
    ∃ s', s.run (.bus offer bo :: es) = .ok s' ∧ Idle s'.c ∧
      ∀ bo' t b, up t OPR_OUT = true → up t ADR_OUT = false → up t SEL_OUT = true →
        up (dev bo' ⟨s'.c, t, b⟩).tags SEL_OUT = false ∧ (dev bo' ⟨s'.c, t, b⟩).c.selected = true := by
  obtain ⟨c', t', k1, k2, k3, k6, _⟩ := bus_hold h bo (s.tin ||| (offer &&& outTags)) s.bin (opr_line _ _ o1)
    (by rw [up_sel, out_bit _ _ ht 15 (by decide) (by decide), ← up_sel]; exact o3)
    (.inl ⟨by rw [up_adr, out_bit _ _ ht 14 (by decide) (by decide), ← up_adr]; exact o2, hk⟩)
  have e1 : ∃ s1, s.next (.bus offer bo) = .ok s1 ∧ Idle s1.c ∧ s1.c.addressed = true ∧ s1.c.selected = false ∧ s1.tin &&& outTags = 0#16 := by
    refine ⟨_, rfl, ?_⟩
    rw [k1]
    exact ⟨k2, k3, k6, cut_out _⟩
  obtain ⟨s1, n1, n2, n3, n5, n4⟩ := e1
  obtain ⟨s', m1, m2, m3, _⟩ := holds_run n2 n3 n5 n4 es he
  refine ⟨s', ?_, m2, fun bo' t b h1 h2 h3 => takes_poll m2 m3 bo' t b h1 h2 h3⟩
  show (s.next _).bind _ = _
  rw [n1]
  exact m1

/-- C154. While it holds such an address the control unit takes address in, status in and service in of
every other control unit down. -/
theorem C154_violated_drops_lines {c : Ctx} (h : Idle c) (had : c.addressed = true) (bo t b : T)
    (ho : up t OPR_OUT = true) (ha : up t ADR_OUT = false) (hs : up t SEL_OUT = false) :
    up (dev bo ⟨c, t, b⟩).tags ADR_IN = false ∧ up (dev bo ⟨c, t, b⟩).tags STA_IN = false ∧
      up (dev bo ⟨c, t, b⟩).tags SRV_IN = false := by
  obtain ⟨c', t', h1, _, _, _, _, h6, h7, h8⟩ := bus_hold h bo t b ho hs (.inr ⟨ha, had⟩)
  rw [h1]
  refine ⟨h6, h7, ?_⟩
  have : ∀ t : T, t.getLsbD 4 = false → up t SRV_IN = false := by
    intro t ht
    have e : t &&& SRV_IN = 0#16 := by
      apply BitVec.eq_of_getLsbD_eq
      intro i hi
      rcases (by omega : i = 0 ∨ i = 1 ∨ i = 2 ∨ i = 3 ∨ i = 4 ∨ i = 5 ∨ i = 6 ∨ i = 7 ∨ i = 8 ∨ i = 9 ∨ i = 10 ∨ i = 11 ∨ i = 12 ∨
        i = 13 ∨ i = 14 ∨ i = 15) with h | h | h | h | h | h | h | h | h | h | h | h | h | h | h | h <;> subst h <;>
        simp [SRV_IN] <;> simpa using ht
    unfold up
    rw [e]
    rfl
  exact this _ h8

/-- C154. An address of another control unit does clear it. -/
theorem C154_cleared_partial {c : Ctx} (h : Idle c) (hs : c.selected = false) (bo t b : T) (ho : up t OPR_OUT = true)
    (ha : up t ADR_OUT = true) (hsl : up t SEL_OUT = false) (hn : (bo &&& 0xf0#16) ≠ c.addr) :
    (dev bo ⟨c, t, b⟩).c.addressed = false ∧ (dev bo ⟨c, t, b⟩).c.selected = false ∧
      up (dev bo ⟨c, t, b⟩).tags STA_IN = up t STA_IN := by
  have hr := noReset ho
  generalize he : dev bo ⟨c, t, b⟩ = o
  cases hp : parityOk bo <;> bus41 he [hr, adr_clr, sel_clr, ha, hsl, hn, hp, h.ig, bits08, h.sta, h.opr, h.request, h.sc, h.svc, h.srv] <;> subst he
  all_goals
    refine ⟨rfl, rfl, ?_⟩
    tags44

/-- Address 0x90 is put up and taken off; an attention of another control unit is then polled in vain. -/
example (t : Dasd.DiskType) : ∃ s s', Line.run ⟨powerOn 0x90#16 (oneDrive (Dasd.fresh t)), 0#16, 0#16⟩
    (List.replicate 18 .micro) = .ok s ∧ s.run [.bus 0x4200#16 0x190#16, .bus 0x0200#16 0x100#16, .micro] = .ok s' ∧
      up (dev 0x100#16 ⟨s'.c, 0x8200#16, 0#16⟩).tags SEL_OUT = false := by
  obtain ⟨s, h1, h2, h3, h4, h5, h6, h7⟩ := example_idle t
  obtain ⟨s', k1, _, k3⟩ := C154_violated_takes_poll h2 h5 0x190#16 (by rw [h7]; decide) 0x4200#16 (by decide) (by decide) (by decide)
    [.bus 0x0200#16 0x100#16, .micro] (by
      intro e he
      rcases List.mem_cons.1 he with h | h
      · rw [h]; exact ⟨by decide, by decide, by decide⟩
      · rw [List.mem_singleton.1 h]; exact True.intro)
  exact ⟨s, s', h1, k1, (k3 0x100#16 0x8200#16 0#16 (by decide) (by decide) (by decide)).1⟩

end Verif.Ctl2841
