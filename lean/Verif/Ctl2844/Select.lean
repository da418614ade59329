import Verif.Ctl2844.Phase

/-!
# The 2844: initial selection under any schedule
-/

namespace Verif.Ctl2844

/-- A microinstruction during the selection of a drive which is there. -/
theorem Stage.micro {a : B} {n : Nat} {c : Ctx} (h : Stage a n c) (ha : bit a 4 = false)
    (hd : (c.disk (a.setWidth 3)).isSome = true) :
    ∃ c', step ros c = .ok c' ∧ (∃ m, m ≤ n - 1 ∧ Stage a m c') ∧ c'.addr = c.addr ∧
      ∀ i, (c'.disk i).isSome = (c.disk i).isSome := by
  have lift : ∀ {k : Nat}, (∃ c', step ros c = .ok c' ∧ Nxt a k c c') → k = n →
      ∃ c', step ros c = .ok c' ∧ (∃ m, m ≤ n - 1 ∧ Stage a m c') ∧ c'.addr = c.addr ∧
      ∀ i, (c'.disk i).isSome = (c.disk i).isSome := by
    rintro k ⟨c', h1, ⟨m, h2, h3⟩, h4, h5⟩ rfl
    exact ⟨c', h1, ⟨m, by omega, h3⟩, h4, fun i => by rw [h5, turn_isSome]⟩
  have hp := h.pos
  match n, h, hp with
  | 0, h, _ =>
    obtain ⟨c', h1, h2, h3, h4⟩ := m55d h
    exact ⟨c', h1, ⟨0, by omega, h2⟩, h3, fun i => by rw [h4, turn_isSome]⟩
  | 1, h, _ => exact lift (m554 h) rfl
  | 2, h, _ => exact lift (m54c h ha) rfl
  | 3, h, _ => exact lift (m558 h) rfl
  | 4, h, _ => exact lift (m553 h) rfl
  | 5, h, _ => exact lift (m547 h) rfl
  | 6, h, _ =>
    obtain ⟨c', h1, h2, h3, h4⟩ := m51d h hd
    exact ⟨c', h1, ⟨5, by omega, h2⟩, h3, h4⟩
  | 7, h, _ => exact lift (m527 h) rfl
  | 8, h, _ => exact lift (m523 h) rfl
  | 9, h, _ => exact lift (m521 h) rfl
  | 10, h, _ => exact lift (m512 h) rfl
  | 11, h, _ => exact lift (m520 h) rfl
  | 12, h, _ => exact lift (m515 h) rfl
  | 13, h, _ => exact lift (m511 h) rfl
  | 14, h, _ => exact lift (m503 h) rfl
  | 15, h, _ => exact lift (m50e h) rfl
  | 16, h, _ => exact lift (m506 h) rfl
  | 17, h, _ => exact lift (m502 h) rfl

/-- A microinstruction during the selection of a drive which is not there. -/
theorem Stage.micro_none {a : B} {n : Nat} {c : Ctx} (h : Stage a n c) (hn : 6 ≤ n)
    (hd : c.disk (a.setWidth 3) = none) :
    step ros c = .null ∨ ∃ c', step ros c = .ok c' ∧ (∃ m, 6 ≤ m ∧ m < n ∧ Stage a m c') ∧ c'.addr = c.addr ∧
      ∀ i, (c'.disk i).isSome = (c.disk i).isSome := by
  have lift : ∀ {k : Nat}, (∃ c', step ros c = .ok c' ∧ Nxt a k c c') → k = n → 7 ≤ n →
      step ros c = .null ∨ ∃ c', step ros c = .ok c' ∧ (∃ m, 6 ≤ m ∧ m < n ∧ Stage a m c') ∧ c'.addr = c.addr ∧
      ∀ i, (c'.disk i).isSome = (c.disk i).isSome := by
    rintro k ⟨c', h1, ⟨m, h2, h3⟩, h4, h5⟩ rfl h7
    exact .inr ⟨c', h1, ⟨m, by omega, by omega, h3⟩, h4, fun i => by rw [h5, turn_isSome]⟩
  have hp := h.pos
  match n, h, hn, hp with
  | 6, h, _, _ => exact .inl (m51d_none h hd)
  | 7, h, _, _ => exact lift (m527 h) rfl (by omega)
  | 8, h, _, _ => exact lift (m523 h) rfl (by omega)
  | 9, h, _, _ => exact lift (m521 h) rfl (by omega)
  | 10, h, _, _ => exact lift (m512 h) rfl (by omega)
  | 11, h, _, _ => exact lift (m520 h) rfl (by omega)
  | 12, h, _, _ => exact lift (m515 h) rfl (by omega)
  | 13, h, _, _ => exact lift (m511 h) rfl (by omega)
  | 14, h, _, _ => exact lift (m503 h) rfl (by omega)
  | 15, h, _, _ => exact lift (m50e h) rfl (by omega)
  | 16, h, _, _ => exact lift (m506 h) rfl (by omega)
  | 17, h, _, _ => exact lift (m502 h) rfl (by omega)

theorem Stage.ig {a : B} {n : Nat} {c : Ctx} (h : Stage a n c) :
    (5 ≤ n ∧ c.IG = 0x08#8) ∨
      (n ≤ 4 ∧ c.IG = 0x01#8 ∧ c.DW = high c.addr ||| (a &&& 0x0f#8)) := by
  have hp := h.pos
  match n, hp with
  | 0, hp => exact .inr ⟨by omega, hp.2.2, hp.2.1.dw⟩
  | 1, hp => exact .inr ⟨by omega, hp.2.2, hp.2.1.dw⟩
  | 2, hp => exact .inr ⟨by omega, hp.2.2.1, hp.2.1.dw⟩
  | 3, hp => exact .inr ⟨by omega, hp.2.2.1, hp.2.1.dw⟩
  | 4, hp => exact .inr ⟨by omega, hp.2.2, hp.2.1.dw⟩
  | 5, hp => exact .inl ⟨by omega, hp.2.2⟩
  | 6, hp => exact .inl ⟨by omega, hp.2.1.ig⟩
  | 7, hp => exact .inl ⟨by omega, hp.2.1.ig⟩
  | 8, hp => exact .inl ⟨by omega, hp.2.1.ig⟩
  | 9, hp => exact .inl ⟨by omega, hp.2.1.ig⟩
  | 10, hp => exact .inl ⟨by omega, hp.2.1.ig⟩
  | 11, hp => exact .inl ⟨by omega, hp.2.1.ig⟩
  | 12, hp => exact .inl ⟨by omega, hp.2.1.ig⟩
  | 13, hp => exact .inl ⟨by omega, hp.2.1.ig⟩
  | 14, hp => exact .inl ⟨by omega, hp.2.ig⟩
  | 15, hp => exact .inl ⟨by omega, hp.2.ig⟩
  | 16, hp => exact .inl ⟨by omega, hp.2.ig⟩
  | 17, hp => exact .inl ⟨by omega, hp.2.ig⟩

/-- What the channel does during initial selection: operational out, address out and select out
up, command out not yet. -/
structure Selecting (out : T) : Prop where
  opr : up out OPR_OUT = true
  adr : up out ADR_OUT = true
  sel : up out SEL_OUT = true
  cmd : up out CMD_OUT = false

/-- Tags kept from cycle to cycle are in tags. -/
theorem lines (tin out : T) (hin : tin &&& outTags = 0#16) (h : Selecting out) :
    Selecting (tin ||| (out &&& outTags)) := by
  have hb : ∀ i, 8 ≤ i → i < 16 → (tin ||| (out &&& outTags)).getLsbD i = out.getLsbD i := by
    intro i h1 h2
    have h3 : outTags.getLsbD i = true := by
      have : ∀ i : Fin 16, 8 ≤ i.val → outTags.getLsbD i.val = true := by decide
      exact this ⟨i, h2⟩ h1
    have h4 : tin.getLsbD i = false := by
      have := congrArg (fun x => x.getLsbD i) hin
      simpa [BitVec.getLsbD_and, h3] using this
    rw [BitVec.getLsbD_or, BitVec.getLsbD_and, h3, h4]
    simp
  obtain ⟨h1, h2, h3, h4⟩ := h
  rw [up_opr] at h1; rw [up_adr] at h2; rw [up_sel] at h3; rw [up_cmd] at h4
  exact ⟨by rw [up_opr, hb _ (by decide) (by decide), h1], by rw [up_adr, hb _ (by decide) (by decide), h2],
    by rw [up_sel, hb _ (by decide) (by decide), h3], by rw [up_cmd, hb _ (by decide) (by decide), h4]⟩

theorem kept (t : T) : (t &&& inTags) &&& outTags = 0#16 := by
  rw [BitVec.and_assoc]
  show t &&& (0x00ff#16 &&& 0xff00#16) = 0#16
  simp

theorem up_kept (t : T) : up (t &&& inTags) ADR_IN = up t ADR_IN ∧ up (t &&& inTags) OPR_IN = up t OPR_IN ∧
    up (t &&& inTags) STA_IN = up t STA_IN := by
  simp only [up_adrIn, up_oprIn, up_staIn, inTags]
  simp

/-- The address the control unit answers with. -/
def answer (c : Ctx) (a : B) : T := withParity (high c.addr ||| (a &&& 0x0f#8))

/-- A selection in progress, seen from the channel. -/
structure LStage (a : B) (n : Nat) (s : Line) : Prop where
  st : Stage a n s.c
  tin : s.tin &&& outTags = 0#16
  ans : up s.tin ADR_IN = true → s.bin = answer s.c a

theorem Stage.regs {a : B} {n : Nat} {c c' : Ctx} (h : Stage a n c) (hs : Sel a c') (hr : c'.regs = c.regs) : Stage a n c' :=
  ⟨hs, by rw [hr]; exact h.base, by rw [hr]; exact h.pos⟩

/-- A cycle of the channel during selection. -/
theorem LStage.bus {a : B} {n : Nat} {s : Line} (h : LStage a n s) (out bo : T) (ho : Selecting out)
    (hb : bo.setWidth 8 = a) (hk : takes s.c bo = true) :
    ∃ s', s.next (.bus out bo) = .ok s' ∧ LStage a n s' ∧ s'.c.regs = s.c.regs ∧
      (n ≤ 4 → up s'.tin ADR_IN = true ∧ up s'.tin OPR_IN = true ∧ up s'.tin STA_IN = false ∧ s'.c.opr_in = true ∧
        s'.c.IG = 0x01#8) := by
  have hl := lines s.tin out h.tin ho
  rcases h.st.ig with ⟨hn, hg⟩ | ⟨hn, hg, hdw⟩
  · obtain ⟨c', t', h1, h2, h3, _, _, h6, _⟩ := bus_select (c := s.c)
      ⟨h.st.sel.request, h.st.sel.sta, h.st.sel.srv, h.st.sel.svc, h.st.sel.er3, h.st.sel.opr hg⟩ bo _ s.bin hg
      hl.opr hl.adr hl.sel hl.cmd hk
    refine ⟨⟨c', t' &&& inTags, s.bin⟩, ?_, ⟨h.st.regs (hb ▸ h2) h3, kept t', ?_⟩, h3, fun hx => by omega⟩
    · show Out.ok _ = _
      rw [h1]
    · intro hx
      rw [(up_kept t').1, h6] at hx
      cases hx
  · obtain ⟨c', t', h1, h2, h3, h4, _, h6, h7, h8⟩ := bus_adrIn h.st.sel bo _ s.bin hg
      hl.opr hl.adr hl.sel hl.cmd hk
    refine ⟨⟨c', t' &&& inTags, withParity s.c.DW⟩, ?_, ⟨h.st.regs (hb ▸ h2) h3, kept t', ?_⟩, h3, fun _ => ?_⟩
    · show Out.ok _ = _
      rw [h1]
    · intro _
      have : c'.addr = s.c.addr := congrArg Regs.addr h3
      rw [hdw]
      unfold answer
      rw [this]
    · obtain ⟨k1, k2, k3⟩ := up_kept t'
      exact ⟨k1.trans h6, k2.trans h7, k3.trans h8, h4, (congrArg Regs.IG h3).trans hg⟩

/-- Number of microinstructions in a schedule. -/
def micros : List Ev → Nat
  | [] => 0
  | .micro :: es => micros es + 1
  | .bus _ _ :: es => micros es

/-- The channel keeps selecting with `bo` on the bus. -/
def Holds (bo : T) : Ev → Prop
  | .micro => True
  | .bus out b => Selecting out ∧ b = bo

/-- Selection of a drive which is there, under any schedule. -/
theorem LStage.run {a : B} {n : Nat} {s : Line} (h : LStage a n s) (ha : bit a 4 = false)
    (hd : (s.c.disk (a.setWidth 3)).isSome = true) (bo : T) (hb : bo.setWidth 8 = a) (hk : takes s.c bo = true)
    (es : List Ev) (hes : ∀ e ∈ es, Holds bo e) :
    ∃ s' m, s.run es = .ok s' ∧ LStage a m s' ∧ m ≤ n - micros es ∧ s'.c.addr = s.c.addr ∧
      ∀ i, (s'.c.disk i).isSome = (s.c.disk i).isSome := by
  induction es generalizing s n with
  | nil => exact ⟨s, n, rfl, h, by simp [micros], rfl, fun _ => rfl⟩
  | cons e es ih =>
    have he := hes e (List.mem_cons_self ..)
    have hes' : ∀ e ∈ es, Holds bo e := fun x hx => hes x (List.mem_cons_of_mem _ hx)
    cases e with
    | micro =>
      obtain ⟨c', h1, ⟨m, h2, h3⟩, h4, h5⟩ := h.st.micro ha hd
      have hl : LStage a m { s with c := c' } := ⟨h3, h.tin, fun hx => by
        have := h.ans hx
        unfold answer at this ⊢
        show s.bin = withParity (high c'.addr ||| _)
        rw [h4, this]⟩
      have hk' : takes c' bo = true := by unfold takes at hk ⊢; rw [h4]; exact hk
      obtain ⟨s', m', k1, k2, k3, k4, k5⟩ := ih hl (by show (c'.disk _).isSome = true; rw [h5]; exact hd) hk' hes'
      refine ⟨s', m', ?_, k2, ?_, k4.trans h4, fun i => (k5 i).trans (h5 i)⟩
      · show (Line.next s .micro).bind _ = _
        rw [show Line.next s .micro = .ok { s with c := c' } by show (step ros s.c).bind _ = _; rw [h1]; rfl]
        exact k1
      · show m' ≤ n - (micros es + 1)
        omega
    | bus out b =>
      obtain ⟨ho, rfl⟩ := he
      obtain ⟨s1, h1, h2, h3, _⟩ := h.bus out b ho hb hk
      have h4 : s1.c.addr = s.c.addr := congrArg Regs.addr h3
      have h5 : s1.c.disk = s.c.disk := congrArg Regs.disk h3
      have hk' : takes s1.c b = true := by unfold takes at hk ⊢; rw [h4]; exact hk
      obtain ⟨s', m', k1, k2, k3, k4, k5⟩ := ih h2 (by rw [h5]; exact hd) hk' hes'
      refine ⟨s', m', ?_, k2, k3, k4.trans h4, fun i => (k5 i).trans (by rw [h5])⟩
      show (Line.next s _).bind _ = _
      rw [h1]
      exact k1

/-- Selection of a drive which is not there: after at most `n` microinstructions the simulator
reaches through a null pointer. -/
theorem LStage.run_none {a : B} {n : Nat} {s : Line} (h : LStage a n s) (hn : 6 ≤ n)
    (hd : s.c.disk (a.setWidth 3) = none) (bo : T) (hb : bo.setWidth 8 = a) (hk : takes s.c bo = true)
    (es : List Ev) (hes : ∀ e ∈ es, Holds bo e) (hm : n ≤ micros es + 5) : s.run es = .null := by
  induction es generalizing s n with
  | nil => simp only [micros] at hm; omega
  | cons e es ih =>
    have he := hes e (List.mem_cons_self ..)
    have hes' : ∀ e ∈ es, Holds bo e := fun x hx => hes x (List.mem_cons_of_mem _ hx)
    cases e with
    | micro =>
      show (Line.next s .micro).bind _ = _
      rcases h.st.micro_none hn hd with h1 | ⟨c', h1, ⟨m, h2, h3, h3'⟩, h4, h5⟩
      · rw [show Line.next s .micro = .null by show (step ros s.c).bind _ = _; rw [h1]; rfl]
        rfl
      · have hl : LStage a m { s with c := c' } := ⟨h3', h.tin, fun hx => by
          have := h.ans hx
          unfold answer at this ⊢
          show s.bin = withParity (high c'.addr ||| _)
          rw [h4, this]⟩
        have hk' : takes c' bo = true := by unfold takes at hk ⊢; rw [h4]; exact hk
        rw [show Line.next s .micro = .ok { s with c := c' } by show (step ros s.c).bind _ = _; rw [h1]; rfl]
        refine ih hl h2 ?_ hk' hes' ?_
        · have := h5 (a.setWidth 3)
          rw [hd] at this
          exact Option.isSome_eq_false_iff.1 this |> Option.isNone_iff_eq_none.1
        · simp only [micros] at hm
          omega
    | bus out b =>
      obtain ⟨ho, rfl⟩ := he
      obtain ⟨s1, h1, h2, h3, _⟩ := h.bus out b ho hb hk
      have h4 : s1.c.addr = s.c.addr := congrArg Regs.addr h3
      have h5 : s1.c.disk = s.c.disk := congrArg Regs.disk h3
      have hk' : takes s1.c b = true := by unfold takes at hk ⊢; rw [h4]; exact hk
      show (Line.next s _).bind _ = _
      rw [h1]
      exact ih h2 hn (by rw [h5]; exact hd) hk' hes' hm

/-- The first cycle of a selection. -/
theorem Idle.select {s : Line} (h : Idle s.c) (ht : s.tin &&& outTags = 0#16) (out bo : T) (ho : Selecting out)
    (hk : takes s.c bo = true) :
    ∃ s' n, s.next (.bus out bo) = .ok s' ∧ LStage (bo.setWidth 8) n s' ∧ 14 ≤ n ∧ n ≤ 17 ∧ s'.c.regs = s.c.regs ∧
      s'.bin = s.bin ∧ s'.c.selected = true ∧ up s'.tin ADR_IN = false := by
  have hl := lines s.tin out ht ho
  obtain ⟨c', t', h1, h2, h3, h4, h5, h6, h7⟩ := bus_select (c := s.c)
    ⟨h.request, h.sta, h.srv, h.svc, h.er3, h.opr⟩ bo _ s.bin h.ig hl.opr hl.adr hl.sel hl.cmd hk
  have hb : Base s.c.regs := ⟨h.st0, h.fc, h.quiet, h.sc⟩
  have hs : Start s.c.regs := ⟨h.ig, h.st2, h.ur, h.ft⟩
  have hp : ∃ n, 14 ≤ n ∧ n ≤ 17 ∧ Pos (bo.setWidth 8) n s.c.regs := by
    rcases h.loop with hw | hw | hw | hw | hw
    · exact ⟨15, by omega, by omega, .inl hw, hs⟩
    · exact ⟨17, by omega, by omega, hw, hs⟩
    · exact ⟨16, by omega, by omega, hw, hs⟩
    · exact ⟨14, by omega, by omega, .inr hw, hs⟩
    · exact ⟨15, by omega, by omega, .inr hw, hs⟩
  obtain ⟨n, hn1, hn2, hp⟩ := hp
  refine ⟨⟨c', t' &&& inTags, s.bin⟩, n, ?_, ⟨⟨h2, h3 ▸ hb, h3 ▸ hp⟩, kept t', ?_⟩, hn1, hn2, h3, rfl, h2.sel,
    (up_kept t').1.trans h6⟩
  · show Out.ok _ = _
    rw [h1]
  · intro hx
    rw [(up_kept t').1, h6] at hx
    cases hx

end Verif.Ctl2844
