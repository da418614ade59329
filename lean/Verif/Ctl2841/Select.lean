import Verif.Ctl2841.Phase

/-!
# The 2841: initial selection under any schedule
-/

namespace Verif.Ctl2841
open Verif.Ctl2844 hiding Regs Base Pos Calm Sel Stage LStage bus_select bus_adrIn Start Ctx.regs Idle

theorem Stage.ig {a : B} {n : Nat} {c : Ctx} (h : Stage a n c) :
    (1 ≤ n ∧ c.IG = 0x08#8) ∨ (n = 0 ∧ c.IG = 0x01#8 ∧ c.DW = a) := by
  have hp := h.pos
  match n, hp with
  | 0, hp => exact .inr ⟨rfl, hp.1, hp.2.1⟩
  | 1, hp => exact .inl ⟨by omega, hp.2.1⟩
  | 2, hp => exact .inl ⟨by omega, hp.2.1⟩
  | 3, hp => exact .inl ⟨by omega, hp.2.1⟩
  | 4, hp => exact .inl ⟨by omega, hp.2.1⟩
  | 5, hp => exact .inl ⟨by omega, hp.2.1⟩
  | 6, hp => exact .inl ⟨by omega, hp.2.1⟩

theorem Stage.le {a : B} {n : Nat} {c : Ctx} (h : Stage a n c) : n ≤ 6 := by
  have hp := h.pos
  match n, hp with
  | 0, _ => omega
  | 1, _ => omega
  | 2, _ => omega
  | 3, _ => omega
  | 4, _ => omega
  | 5, _ => omega
  | 6, _ => omega

theorem Stage.regs {a : B} {n : Nat} {c c' : Ctx} (h : Stage a n c) (hs : Sel a c') (hr : c'.regs = c.regs) : Stage a n c' :=
  ⟨hs, by rw [hr]; exact h.base, by rw [hr]; exact h.pos⟩

/-- A selection from its first cycle on.  `n = 8`: not yet; `n = 7`: the address has been seen once;
`n ≤ 6`: the control unit is selected. -/
def At (a : B) (n : Nat) (c : Ctx) : Prop :=
  Stage a n c ∨ (n = 7 ∧ Idle c ∧ c.selected = false ∧ c.addressed = true ∧ bit c.ER 1 = true) ∨
    (n = 8 ∧ Idle c ∧ c.selected = false ∧ c.addressed = false)

/-- The same, seen from the channel. -/
structure LAt (a : B) (n : Nat) (s : Line) : Prop where
  st : At a n s.c
  tin : s.tin &&& outTags = 0#16
  ans : up s.tin ADR_IN = true → s.bin = withParity a

theorem Idle.calm {c : Ctx} (h : Idle c) : Calm c := ⟨h.request, h.sta, h.srv, h.svc, h.er3, h.er7, fun _ => h.opr⟩

/-- Idle depends on these registers and the interface side. -/
theorem Idle.of_regs {c c' : Ctx} (h : Idle c) (k : Calm c') (hr : c'.regs = c.regs) : Idle c' := by
  have e : ∀ {α : Type} (f : Regs → α), f c'.regs = f c.regs := fun f => by rw [hr]
  have ig : c'.IG = 0x08#8 := (e Regs.IG).trans h.ig
  exact ⟨by have := e Regs.WX; rw [show c'.WX = c.WX from this]; exact h.loop,
    by rw [show c'.ST = c.ST from e Regs.ST]; exact h.st0, by rw [show c'.ST = c.ST from e Regs.ST]; exact h.st2,
    ig, k.request, k.opr ig, k.sta, k.svc, (e Regs.FC).trans h.fc, k.srv, k.er3, k.er7,
    by rw [show c'.ST = c.ST from e Regs.ST]; exact h.st7, (e Regs.FT).trans h.ft,
    by rw [show c'.disk = c.disk from e Regs.disk]; exact h.quiet, (e Regs.SC).trans h.sc⟩

theorem LAt.next {a : B} {n : Nat} {s : Line} (h : LAt a n s) (bo : T) (hb : bo.setWidth 8 = a) (hk : (bo &&& 0xf0#16) = s.c.addr)
    (e : Ev) (he : Holds bo e) :
    ∃ s' m, s.next e = .ok s' ∧ LAt a m s' ∧ s'.c.addr = s.c.addr ∧ m ≤ n ∧
      (n ≤ 6 → m ≤ n - micros [e]) ∧ ((∃ out, e = .bus out bo) → 7 ≤ n → m ≤ n - 1) ∧
      (n = 0 → (∃ out, e = .bus out bo) → up s'.tin ADR_IN = true ∧ up s'.tin OPR_IN = true ∧ up s'.tin STA_IN = false ∧
        s'.c.opr_in = true ∧ s'.c.IG = 0x01#8) := by
  cases e with
  | micro =>
    rcases h.st with hst | ⟨rfl, hi, hs, had, h1⟩ | ⟨rfl, hi, hs, had⟩
    · obtain ⟨c', k1, k2, k3⟩ := hst.micro
      refine ⟨{ s with c := c' }, n - 1, ?_, ⟨.inl k2, h.tin, h.ans⟩, k3, by omega, fun _ => by simp [micros], ?_, ?_⟩
      · show (step ros s.c).bind _ = _
        rw [k1]; rfl
      · rintro ⟨_, hx⟩; cases hx
      · rintro _ ⟨_, hx⟩; cases hx
    · obtain ⟨c', k1, k2, k3, k4, k5, _, k7⟩ := hi.micro hs
      refine ⟨{ s with c := c' }, 7, ?_, ⟨.inr (.inl ⟨rfl, k2, k3, k4.trans had, by show bit c'.ER 1 = true; rw [k7]; exact h1⟩), h.tin,
        h.ans⟩, k5, by omega, fun hx => by omega, ?_, ?_⟩
      · show (step ros s.c).bind _ = _
        rw [k1]; rfl
      · rintro ⟨_, hx⟩; cases hx
      · rintro _ ⟨_, hx⟩; cases hx
    · obtain ⟨c', k1, k2, k3, k4, k5, _, k7⟩ := hi.micro hs
      refine ⟨{ s with c := c' }, 8, ?_, ⟨.inr (.inr ⟨rfl, k2, k3, k4.trans had⟩), h.tin, h.ans⟩, k5, by omega,
        fun hx => by omega, ?_, ?_⟩
      · show (step ros s.c).bind _ = _
        rw [k1]; rfl
      · rintro ⟨_, hx⟩; cases hx
      · rintro _ ⟨_, hx⟩; cases hx
  | bus out b =>
    obtain ⟨ho, rfl⟩ := he
    have hl := lines s.tin out h.tin ho
    have sel : ∀ (hc : Calm s.c) (hg : s.c.IG = 0x08#8) (hsc : s.c.SC = 0#8), ∃ s' : Line, s.next (.bus out b) = .ok s' ∧
        Calm s'.c ∧ s'.c.regs = s.c.regs ∧ s'.c.addressed = true ∧ s'.c.selected = s.c.addressed ∧ bit s'.c.ER 1 = true ∧
        s'.c.bus_out = a ∧ up s'.c.tags CMD_OUT = false ∧ up s'.tin ADR_IN = false ∧ s'.tin &&& outTags = 0#16 := by
      intro hc hg hsc
      obtain ⟨c', t', k1, k2, k3, k4, k5, k6, k7, k8, _, k9, _⟩ := bus_select hc b _ s.bin hg hsc hl.opr hl.adr hl.sel hl.cmd hk
      refine ⟨⟨c', t' &&& inTags, s.bin⟩, ?_, k2, k3, k4, k5, k6, k7.trans hb, k8, (up_kept t').1.trans k9, kept t'⟩
      show Out.ok _ = _
      rw [k1]
    rcases h.st with hst | ⟨rfl, hi, hs, had, h1⟩ | ⟨rfl, hi, hs, had⟩
    · rcases hst.ig with ⟨hn, hg⟩ | ⟨rfl, hg, hdw⟩
      · obtain ⟨s', k1, k2, k3, k4, k5, k6, k7, k8, k9, k10⟩ := sel hst.sel.toCalm hg hst.base.sc
        have hsel : Sel a s'.c := ⟨k2, k5.trans hst.sel.adr, k4, k6, k7, k8⟩
        exact ⟨s', n, k1, ⟨.inl (hst.regs hsel k3), k10, fun hx => by rw [k9] at hx; cases hx⟩, congrArg Regs.addr k3, Nat.le_refl _,
          fun _ => by simp [micros], fun _ hx => by have := hst.le; omega, fun hx => by omega⟩
      · obtain ⟨c', t', k1, k2, k3, k4, _, k6, k7, k8⟩ := bus_adrIn hst.sel b _ s.bin hg hl.opr hl.adr hl.sel hl.cmd hk
        refine ⟨⟨c', t' &&& inTags, withParity s.c.DW⟩, 0, ?_, ⟨.inl (hst.regs (hb ▸ k2) k3), kept t', fun _ => by rw [hdw]⟩,
          congrArg Regs.addr k3, Nat.le_refl _, fun _ => by simp, fun _ hx => by omega, fun _ _ => ?_⟩
        · show Out.ok _ = _
          rw [k1]
        · obtain ⟨e1, e2, e3⟩ := up_kept t'
          exact ⟨e1.trans k6, e2.trans k7, e3.trans k8, k4, (congrArg Regs.IG k3).trans hg⟩
    · obtain ⟨s', k1, k2, k3, k4, k5, k6, k7, k8, k9, k10⟩ := sel hi.calm hi.ig hi.sc
      have hsel : Sel a s'.c := ⟨k2, k5.trans had, k4, k6, k7, k8⟩
      have hi' := hi.of_regs k2 k3
      refine ⟨s', 6, k1, ⟨.inl ⟨hsel, ⟨hi'.st0, hi'.st2, hi'.st7, hi'.fc, hi'.quiet, hi'.sc⟩, hi'.loop, hi'.ig, hi'.ft⟩, k10,
        fun hx => by rw [k9] at hx; cases hx⟩, congrArg Regs.addr k3, by omega, fun hx => by omega, fun _ _ => by omega,
        fun hx => by omega⟩
    · obtain ⟨s', k1, k2, k3, k4, k5, k6, k7, k8, k9, k10⟩ := sel hi.calm hi.ig hi.sc
      exact ⟨s', 7, k1, ⟨.inr (.inl ⟨rfl, hi.of_regs k2 k3, k5.trans had, k4, k6⟩), k10, fun hx => by rw [k9] at hx; cases hx⟩,
        congrArg Regs.addr k3, by omega, fun hx => by omega, fun _ _ => by omega, fun hx => by omega⟩

/-- Number of the channel's cycles in a schedule. -/
def cycles : List Ev → Nat
  | [] => 0
  | .micro :: es => cycles es
  | .bus _ _ :: es => cycles es + 1

theorem LAt.run {a : B} {n : Nat} {s : Line} (h : LAt a n s) (bo : T) (hb : bo.setWidth 8 = a) (hk : (bo &&& 0xf0#16) = s.c.addr)
    (es : List Ev) (hes : ∀ e ∈ es, Holds bo e) :
    ∃ s' m, s.run es = .ok s' ∧ LAt a m s' ∧ s'.c.addr = s.c.addr ∧ m ≤ n ∧ (n ≤ 6 → m ≤ n - micros es) ∧
      (n ≤ 6 + cycles es → m ≤ 6) := by
  induction es generalizing s n with
  | nil => exact ⟨s, n, rfl, h, rfl, Nat.le_refl _, fun _ => by simp [micros], fun hx => by simpa [cycles] using hx⟩
  | cons e es ih =>
    have he := hes e (List.mem_cons_self ..)
    obtain ⟨s1, m1, h1, h2, h3, h4, h5, h6, _⟩ := h.next bo hb hk e he
    obtain ⟨s', m, k1, k2, k3, k4, k5, k6⟩ := ih h2 (by rw [h3]; exact hk) (fun x hx => hes x (List.mem_cons_of_mem _ hx))
    refine ⟨s', m, ?_, k2, k3.trans h3, by omega, fun hn => ?_, fun hn => ?_⟩
    · show (s.next e).bind _ = _
      rw [h1]
      exact k1
    · have a1 := h5 hn
      have a2 := k5 (by omega)
      have : micros (e :: es) = micros [e] + micros es := by cases e <;> simp only [micros] <;> omega
      omega
    · cases e with
      | micro => exact k6 (by simp only [cycles] at hn; omega)
      | bus out b =>
        obtain ⟨_, rfl⟩ := he
        simp only [cycles] at hn
        by_cases h7 : 7 ≤ n
        · have := h6 ⟨out, rfl⟩ h7
          exact k6 (by omega)
        · omega

/-- A control unit at rest, before the channel's first cycle. -/
theorem Idle.at {s : Line} (h : Idle s.c) (hs : s.c.selected = false) (ha : s.c.addressed = false) (ht : s.tin &&& outTags = 0#16)
    (hi : up s.tin ADR_IN = false) (a : B) : LAt a 8 s :=
  ⟨.inr (.inr ⟨rfl, h, hs, ha⟩), ht, fun hx => by rw [hi] at hx; cases hx⟩

end Verif.Ctl2841
