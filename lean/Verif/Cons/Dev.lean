import Verif.Cons.Bus
/-!
# Histories of the 1052 (C80, C81, C82, C86)
-/
namespace Verif.Cons
open Verif.Bus
open Verif.Card (Res)

/-- What can happen to a console. -/
inductive DOp where
  /-- the bus function is called with these tags and bus values -/
  | bus (t : Tags) (bo bi : Nat)
  /-- a pending event fires -/
  | fire (c : Cb)
  /-- the terminal sends a packet; the empty one ends the connection -/
  | packet (bs : List Nat)
  /-- the thread sends what is to be sent -/
  | flush
  /-- a terminal calls -/
  | caller
deriving Repr

/-- One of them. An event that is not pending cannot fire. -/
def dstep (s : S) : DOp → Res S
  | .bus t bo bi => (dev s t bo bi).bind (fun r => .ok r.1)
  | .fire c =>
    if c ∈ s.evs then
      let s := { s with evs := s.evs.erase c }
      match c with
      | .poll => pollCb s
      | .send => sendCb s
    else .ok s
  | .packet bs => (packet s.t bs).bind (fun t => .ok { s with t })
  | .flush => .ok { s with t := flush s.t }
  | .caller => .ok { s with t := connect s.t }

def drun : S → List DOp → Res S
  | s, [] => .ok s
  | s, o :: os => (dstep s o).bind (fun s => drun s os)

/-! ## Registers stay in range -/

structure Inv (s : S) : Prop where
  status : s.status < 256
  sense : s.sense < 256
  t : Wf s.t

theorem or8 {a b : Nat} (h : a < 256) (h' : b < 256) : a ||| b < 256 := Nat.or_lt_two_pow (n := 8) h h'

theorem z8 : (0 : Nat) < 256 := by decide

theorem ce_de : sChnEnd ||| sDevEnd < 256 := by decide

theorem Inv.keep {s s' : S} (h : Inv s) (h1 : s'.status < 256) (h2 : s'.sense < 256) (h3 : s'.t = s.t) : Inv s' := ⟨h1, h2, by rw [h3]; exact h.t⟩

theorem Inv.signal {s : S} (h : Inv s) (v : Nat) : Inv (signal s v) := ⟨h.status, h.sense, func_wf s.t v h.t⟩

theorem reset_inv {s : S} (h : Inv s) : Inv (reset s) := by
  have h' : Inv { s with selected := false, request := false, st := .idle, sense := 0, cmd := 0, cmdDone := false, busy := false, dataEnd := false, dataRdy := false } := ⟨h.status, z8, h.t⟩
  have := h'.signal 0x03
  exact ⟨this.status, this.sense, this.t⟩

theorem deviceCmd_inv {s : S} (h : Inv s) (b : Nat) : Inv (deviceCmd s b) := by
  have n : ∀ s : S, Inv s → Inv (invalid s) := fun s h => ⟨by show sChnEnd ||| sDevEnd ||| sUnitChk < 256; decide, by show eCmdRej < 256; decide, h.t⟩
  unfold deviceCmd
  split
  · exact ⟨by show sBusy < 256; decide, h.sense, h.t⟩
  · have h0 : Inv { s with cmd := b % 256, dataRdy := false, dataEnd := false, cmdDone := false, stacked := false, status := 0 } := ⟨z8, h.sense, h.t⟩
    simp only
    split
    · exact n _ h0
    · have h1 : Inv { s with cmd := b % 256, dataRdy := false, dataEnd := false, cmdDone := false, stacked := false, status := 0, sense := 0 } := ⟨z8, z8, h.t⟩
      split
      · exact h0
      · have := h1.signal 0x81; exact ⟨this.status, this.sense, this.t⟩
      · have := h1.signal 0x81; exact ⟨this.status, this.sense, this.t⟩
      · have := h1.signal 0x51; exact ⟨this.status, this.sense, this.t⟩
      · exact ⟨ce_de, z8, h.t⟩
      · exact ⟨z8, h.sense, h.t⟩
      · exact n _ h0

theorem endSignal_inv {s : S} (h : Inv s) : Inv (endSignal s) := by
  unfold endSignal
  split
  · exact h.signal _
  · exact h.signal _
  · exact h.signal _
  · exact h

/-- A bus call of a console in range leaves it in range, and fails only in the data states with a nine-bit data register. -/
theorem dev_inv {s : S} (h : Inv s) (t : Tags) (bo bi : Nat) :
    (∃ s' t' bi', dev s t bo bi = .ok (s', t', bi') ∧ Inv s') ∨ (256 ≤ s.data ∧ (s.st = .data1 ∨ s.st = .data2) ∧ dev s t bo bi = .oob) := by
  have h1 := h.status
  have h2 := h.sense
  have o1 : s.status ||| sChnEnd < 256 := or8 h1 (by decide)
  have o2 : s.status ||| (sChnEnd ||| sDevEnd) < 256 := or8 h1 (by decide)
  have o3 : s.sense ||| eBusChk < 256 := or8 h2 (by decide)
  have o4 : sChnEnd ||| sDevEnd ||| sUnitChk < 256 := by decide
  have ok : ∀ r : Io, Inv r.1 → (∃ s' t' bi', (Res.ok r : Res Io) = .ok (s', t', bi') ∧ Inv s') := fun r hr => ⟨r.1, r.2.1, r.2.2, rfl, hr⟩
  unfold dev
  split
  · exact Or.inl (ok _ (reset_inv h))
  · cases hs : s.st <;> simp only
    · left
      apply ok
      unfold idle idleAddressed
      simp only
      repeat' split
      all_goals first | exact h | exact ⟨h1, o3, h.t⟩ | exact ⟨h1, h2, h.t⟩
    · left
      apply ok
      unfold busyState
      simp only
      repeat' split
      all_goals first | exact h | exact ⟨h1, h2, h.t⟩ | exact ⟨o2, h2, h.t⟩
    · left
      apply ok
      unfold initSel
      simp only
      repeat' split
      all_goals first | exact h | exact ⟨h1, h2, h.t⟩
    · left
      apply ok
      unfold command commandOut
      simp only
      repeat' split
      all_goals first
        | exact ⟨o4, o3, h.t⟩
        | exact ⟨h1, h2, h.t⟩
        | exact ⟨o1, h2, h.t⟩
        | exact ⟨o2, h2, func_wf s.t 1 h.t⟩
        | exact deviceCmd_inv (s := { s with request := false, st := .status }) ⟨h1, h2, h.t⟩ bo
    · left
      unfold status
      simp only
      split
      · have o5 : s.status ||| sAttn < 256 := or8 h1 (by decide)
        simp only [withPar_ok _ o5]
        exact ok _ ⟨o5, h2, func_wf s.t 2 h.t⟩
      · simp only [withPar_ok _ h1]
        exact ok _ ⟨h1, h2, h.t⟩
    · left
      unfold statusAccept statusAccepted
      simp only [withPar_ok _ h1, Res.bind]
      repeat' split
      all_goals first | exact ok _ ⟨h1, h2, h.t⟩ | exact ok _ ⟨z8, h2, h.t⟩
    · left
      apply ok
      unfold statusWait
      simp only
      repeat' split
      all_goals first | exact h | exact ⟨h1, h2, h.t⟩
    · left
      unfold endStatus
      simp only [withPar_ok _ h1, Res.bind]
      repeat' split
      all_goals exact ok _ ⟨h1, h2, h.t⟩
    · left
      unfold endAccept endAccepted
      simp only [withPar_ok _ h1, Res.bind]
      repeat' split
      all_goals first | exact ok _ ⟨h1, h2, h.t⟩ | exact ok _ ⟨z8, h2, h.t⟩
    · left
      apply ok
      unfold waitDevend
      simp only
      repeat' split
      all_goals first | exact h | exact ⟨h1, h2, h.t⟩
    · left
      apply ok
      unfold opr
      simp only
      repeat' split
      all_goals first
        | exact ⟨h1, h2, h.t⟩
        | exact ⟨o2, h2, h.t⟩
        | (have := endSignal_inv (s := { s with request := false, status := s.status ||| (sChnEnd ||| sDevEnd) }) ⟨o2, h2, h.t⟩
           exact ⟨this.status, this.sense, this.t⟩)
    · by_cases hd : s.data < 256
      · left
        unfold data1
        simp only [withPar_ok _ hd, Res.bind]
        repeat' split
        all_goals exact ok _ ⟨h1, h2, h.t⟩
      · unfold data1
        simp only [withPar_oob _ (Nat.not_lt.mp hd), Res.bind]
        split
        · exact Or.inl (ok _ ⟨h1, h2, h.t⟩)
        · split
          · exact Or.inl (ok _ ⟨h1, h2, h.t⟩)
          · exact Or.inr ⟨Nat.not_lt.mp hd, Or.inl trivial, rfl⟩
    · by_cases hd : s.data < 256
      · left
        unfold data2
        simp only [withPar_ok _ hd, Res.bind]
        split
        · apply ok
          have o6 : s.status ||| sUnitChk ||| (sChnEnd ||| sDevEnd) < 256 := or8 (or8 h1 (by decide)) (by decide)
          unfold takeByte
          repeat' split
          all_goals first | exact ⟨o6, o3, h.t⟩ | exact ⟨h1, h2, h.t⟩
        · exact ok _ ⟨h1, h2, h.t⟩
      · right
        refine ⟨Nat.not_lt.mp hd, Or.inr trivial, ?_⟩
        unfold data2
        rw [withPar_oob _ (Nat.not_lt.mp hd)]
        rfl

/-! ## Callbacks -/

theorem func_key (t : T) : (func t 0).1 = t := by
  unfold func signals
  cases h : t.cons <;> simp [tst]

theorem pollEnd_inv {s : S} (h : Inv s) (o : Nat) : Inv (pollEnd s o) := by
  have o1 : s.status ||| sUnitExp < 256 := or8 h.status (by decide)
  unfold pollEnd
  simp only
  repeat' split
  all_goals first
    | exact h
    | exact ⟨h.status, h.sense, h.t⟩
    | exact ⟨o1, h.sense, h.t.congr rfl rfl rfl⟩

/-- The terminal has no character above 127 next. -/
def Spec.NextOk (t : T) : Prop := t.inFlg = true → 0 < t.inLen → t.key t.outPtr % 256 < 128

theorem dstep_inv {s : S} (h : Inv s) (o : DOp) :
    (∃ s', dstep s o = .ok s' ∧ Inv s') ∨
      (dstep s o = .oob ∧ ((∃ t bo bi, o = .bus t bo bi ∧ 256 ≤ s.data ∧ (s.st = .data1 ∨ s.st = .data2)) ∨ (o = .fire .poll ∧ ¬ Spec.NextOk s.t))) := by
  cases o with
  | bus t bo bi =>
    rcases dev_inv h t bo bi with ⟨s', t', bi', a, b⟩ | ⟨a, b, c⟩
    · exact Or.inl ⟨s', bind_ok a rfl, b⟩
    · refine Or.inr ⟨?_, Or.inl ⟨t, bo, bi, rfl, a, b⟩⟩
      simp only [dstep]; rw [c]; rfl
  | fire c =>
    simp only [dstep]
    split
    · cases c with
      | poll =>
        simp only [pollCb, func_key]
        have fin : ∀ (s1 : S) (o : Nat), Inv s1 → ∃ s', (Res.ok s1).bind (fun s => .ok (addEv (pollEnd s o) .poll)) = .ok s' ∧ Inv s' := by
          intro s1 o h1
          have := pollEnd_inv h1 o
          exact ⟨_, rfl, ⟨this.status, this.sense, this.t⟩⟩
        split
        · by_cases hk : Spec.NextOk s.t
          · obtain ⟨r, a, b⟩ := inp_wf s.t h.t hk
            rw [a]
            exact Or.inl (fin _ _ ⟨h.status, h.sense, b⟩)
          · right
            refine ⟨?_, Or.inr ⟨trivial, hk⟩⟩
            unfold Spec.NextOk at hk
            simp only [Classical.not_imp, Nat.not_lt] at hk
            have : inp s.t = .oob := by
              unfold inp
              rw [if_pos ⟨hk.1, hk.2.1⟩, if_pos h.t.outP, tab_none _ hk.2.2]
              rfl
            rw [this]
            rfl
        · exact Or.inl (fin _ _ ⟨h.status, h.sense, h.t⟩)
      | send =>
        left
        simp only [sendCb, func_key]
        split
        · obtain ⟨e, -, a⟩ := out_ok s.t s.data
          rw [a]
          exact ⟨_, rfl, ⟨h.status, h.sense, h.t.congr rfl rfl rfl⟩⟩
        · exact ⟨_, rfl, ⟨h.status, h.sense, h.t⟩⟩
    · exact Or.inl ⟨s, rfl, h⟩
  | packet bs =>
    obtain ⟨t', a, b⟩ := packet_wf bs s.t h.t
    exact Or.inl ⟨_, bind_ok a rfl, ⟨h.status, h.sense, b⟩⟩
  | flush => exact Or.inl ⟨_, rfl, ⟨h.status, h.sense, flush_wf s.t h.t⟩⟩
  | caller => exact Or.inl ⟨_, rfl, ⟨h.status, h.sense, connect_wf s.t h.t⟩⟩

theorem drun_inv (os : List DOp) {s s' : S} (h : Inv s) (hr : drun s os = .ok s') : Inv s' := by
  induction os generalizing s with
  | nil => cases hr; exact h
  | cons o os ih =>
    obtain ⟨s1, a, b⟩ := bind_inv hr
    rcases dstep_inv h o with ⟨s2, c, d⟩ | ⟨hbad, -⟩
    · have : s1 = s2 := Res.ok.inj (a.symm.trans c)
      subst this
      exact ih d b
    · rw [hbad] at a; cases a

theorem init_inv (addr : Nat) : Inv (init addr) := ⟨z8, z8, init_wf⟩

/-- A console as some history from power on leaves it. -/
def Spec.DReachable (s : S) : Prop := ∃ addr os, drun (init addr) os = .ok s

theorem Spec.DReachable.inv {s : S} (h : Spec.DReachable s) : Inv s := by
  obtain ⟨a, os, h⟩ := h
  exact drun_inv os (init_inv a) h

/-- **C80**, memory: from power on, an access outside a table happens only when data is transferred while the data
register holds a parity bit (a byte of a write command), or when a character above 127 is taken from the keyboard. -/
theorem C80_only_data_register_partial (s : S) (o : DOp) (hr : Spec.DReachable s) (h : ¬ ∃ s', dstep s o = .ok s') :
    (∃ t bo bi, o = .bus t bo bi ∧ 256 ≤ s.data ∧ (s.st = .data1 ∨ s.st = .data2)) ∨ (o = .fire .poll ∧ ¬ Spec.NextOk s.t) := by
  rcases dstep_inv hr.inv o with ⟨s', a, -⟩ | ⟨-, a⟩
  · exact absurd ⟨s', a⟩ h
  · exact a

/-! ## C86: the sense command -/

/-- A sense command was given and its initial status accepted. -/
structure Stuck (s : S) : Prop where
  busy : s.busy = true
  cmd : s.cmd = 4
  dataEnd : s.dataEnd = true
  cmdDone : s.cmdDone = false
  flag : s.t.inFlg = false
  eob : s.t.eob = false
  cancel : s.t.cancel = false
  st : s.st ∈ [DState.idle, .busy, .initSel, .command, .status, .statusAccept, .statusWait, .waitDevend]

theorem Stuck.func {t : T} (v : Nat) (h : t.inFlg = false ∧ t.eob = false ∧ t.cancel = false) (hv : ¬ (v &&& 0x50 = 0x50)) :
    (func t v).1.inFlg = false ∧ (func t v).1.eob = false ∧ (func t v).1.cancel = false := by
  unfold Cons.func signals clear
  simp only [if_neg hv]
  repeat' split
  all_goals simp_all

theorem dev_stuck {s s' : S} {t t' : Tags} {bo bi bi' : Nat} (h : Stuck s) (hp : parBad bo = false) (hn : t.opr = true ∨ t.sup = true)
    (hd : dev s t bo bi = .ok (s', t', bi')) : Stuck s' ∧ (t'.srvIn = true → t.srvIn = true) := by
  obtain ⟨b1, b2, b3, b4, b5, b6, b7, b8⟩ := h
  have hf := Stuck.func (t := s.t) 2 ⟨b5, b6, b7⟩ (by decide)
  unfold dev at hd
  rw [if_neg (by rcases hn with h | h <;> simp [h])] at hd
  have mk : ∀ s1 : S, s1.busy = true → s1.cmd = 4 → s1.dataEnd = true → s1.cmdDone = false → s1.t = s.t → s1.st ∈ [DState.idle, .busy, .initSel, .command, .status, .statusAccept, .statusWait, .waitDevend] → Stuck s1 := by
    intro s1 k1 k2 k3 k4 k5 k6
    exact ⟨k1, k2, k3, k4, by rw [k5]; exact b5, by rw [k5]; exact b6, by rw [k5]; exact b7, k6⟩
  cases hs : s.st <;> rw [hs] at hd b8 <;> simp only [Res.ok.injEq] at hd
  · unfold idle idleAddressed at hd
    simp only [hp, b1] at hd
    repeat' split at hd
    all_goals
      simp only [Prod.mk.injEq] at hd
      obtain ⟨h1, h2, -⟩ := hd
      subst h1 h2
      refine ⟨mk _ (by first | rfl | exact b1) (by first | rfl | exact b2) (by first | rfl | exact b3) (by first | rfl | exact b4) rfl (by simp [hs]), ?_⟩
      first | exact fun h => h | (split <;> exact fun h => h)
  · unfold busyState at hd
    simp only [b3] at hd
    repeat' split at hd
    all_goals
      simp only [Prod.mk.injEq] at hd
      obtain ⟨h1, h2, -⟩ := hd
      subst h1 h2
      first
        | (exfalso; simp_all; done)
        | exact ⟨mk _ (by first | rfl | exact b1) (by first | rfl | exact b2) (by first | rfl | exact b3) (by first | rfl | exact b4) rfl (by simp [hs]), fun h => h⟩
  · unfold initSel at hd
    simp only at hd
    repeat' split at hd
    all_goals
      simp only [Prod.mk.injEq] at hd
      obtain ⟨h1, h2, -⟩ := hd
      subst h1 h2
      exact ⟨mk _ (by first | rfl | exact b1) (by first | rfl | exact b2) (by first | rfl | exact b3) (by first | rfl | exact b4) rfl (by simp [hs]), fun h => h⟩
  · unfold command commandOut at hd
    simp only [hp, b1, b3, b4] at hd
    repeat' split at hd
    all_goals
      simp only [Prod.mk.injEq] at hd
      obtain ⟨h1, h2, -⟩ := hd
      subst h1 h2
      first
        | (exfalso; simp_all; done)
        | exact ⟨mk _ (by first | rfl | exact b1) (by first | rfl | exact b2) (by first | rfl | exact b3) (by first | rfl | exact b4) rfl (by simp [hs]), fun h => h⟩
  · unfold status at hd
    obtain ⟨b, -, hd⟩ := bind_inv hd
    have hd := Res.ok.inj hd
    simp only [Prod.mk.injEq] at hd
    obtain ⟨h1, h2, -⟩ := hd
    subst h1 h2
    refine ⟨?_, fun h => h⟩
    split
    · exact ⟨b1, b2, b3, b4, hf.1, hf.2.1, hf.2.2, by simp⟩
    · exact mk _ (by first | rfl | exact b1) (by first | rfl | exact b2) (by first | rfl | exact b3) (by first | rfl | exact b4) rfl (by simp)
  · unfold statusAccept statusAccepted at hd
    obtain ⟨b, -, hd⟩ := bind_inv hd
    simp only [b2, b3, b4] at hd
    repeat' split at hd
    all_goals
      have hd := Res.ok.inj hd
      simp only [Prod.mk.injEq] at hd
      obtain ⟨h1, h2, -⟩ := hd
      subst h1 h2
      first
        | (exfalso; simp_all; done)
        | (refine ⟨mk _ (by first | rfl | exact b1) (by first | rfl | exact b2) (by first | rfl | exact b3) (by first | rfl | exact b4) rfl (by simp [hs]), ?_⟩
           first | exact fun h => h | (split <;> exact fun h => h))
  · unfold statusWait at hd
    simp only at hd
    repeat' split at hd
    all_goals
      simp only [Prod.mk.injEq] at hd
      obtain ⟨h1, h2, -⟩ := hd
      subst h1 h2
      exact ⟨mk _ (by first | rfl | exact b1) (by first | rfl | exact b2) (by first | rfl | exact b3) (by first | rfl | exact b4) rfl (by simp [hs]), fun h => h⟩
  · simp at b8
  · simp at b8
  · unfold waitDevend at hd
    simp only [b4] at hd
    repeat' split at hd
    all_goals
      simp only [Prod.mk.injEq] at hd
      obtain ⟨h1, h2, -⟩ := hd
      subst h1 h2
      first
        | (exfalso; simp_all; done)
        | exact ⟨mk _ (by first | rfl | exact b1) (by first | rfl | exact b2) (by first | rfl | exact b3) (by first | rfl | exact b4) rfl (by simp [hs]), fun h => h⟩
  · simp at b8
  · simp at b8
  · simp at b8

theorem tagsOut_quiet {t : T} (h2 : t.eob = false) (h3 : t.cancel = false) : tst (tagsOut t) 0xa0 = false := by
  unfold tagsOut
  simp only [h2, h3]
  repeat' split
  all_goals first | rfl | contradiction

theorem pushChar_locked {t t' : T} {c : Nat} (h : t.inFlg = false) (hp : pushChar t c = .ok t') :
    t'.inFlg = false ∧ t'.eob = t.eob ∧ t'.cancel = t.cancel := by
  unfold pushChar at hp
  simp only [h] at hp
  repeat' split at hp
  all_goals first
    | contradiction
    | (have := Res.ok.inj hp; rw [← this]; exact ⟨by first | exact h | simp_all, rfl, rfl⟩)

theorem telnet_locked {t t' : T} {c : Nat} (h : t.inFlg = false) (hp : telnet t c = .ok t') :
    t'.inFlg = false ∧ t'.eob = t.eob ∧ t'.cancel = t.cancel := by
  unfold telnet at hp
  repeat' split at hp
  all_goals first
    | exact pushChar_locked h hp
    | (have := Res.ok.inj hp; subst this; exact ⟨h, rfl, rfl⟩)
    | (obtain ⟨t1, a, b⟩ := bind_inv hp
       have := Res.ok.inj b
       rw [← this]
       have q := pushChar_locked h a
       exact ⟨q.1, q.2.1, q.2.2⟩)

theorem packetLoop_locked {bs : List Nat} {t t' : T} (h : t.inFlg = false) (hp : packetLoop t bs = .ok t') :
    t'.inFlg = false ∧ t'.eob = t.eob ∧ t'.cancel = t.cancel := by
  induction bs generalizing t with
  | nil => have := Res.ok.inj hp; subst this; exact ⟨h, rfl, rfl⟩
  | cons c cs ih =>
    rw [packetLoop] at hp
    split at hp
    · obtain ⟨t1, a, b⟩ := bind_inv hp
      obtain ⟨a1, a2, a3⟩ := telnet_locked h a
      obtain ⟨b1, b2, b3⟩ := ih a1 b
      exact ⟨b1, b2.trans a2, b3.trans a3⟩
    · have := Res.ok.inj hp; subst this; exact ⟨h, rfl, rfl⟩

theorem packet_locked {bs : List Nat} {t t' : T} (h : t.inFlg = false) (hp : packet t bs = .ok t') :
    t'.inFlg = false ∧ t'.eob = t.eob ∧ t'.cancel = t.cancel := by
  unfold packet at hp
  split at hp
  · have := Res.ok.inj hp; subst this; exact ⟨h, rfl, rfl⟩
  · split at hp
    · have := Res.ok.inj hp; subst this; exact ⟨h, rfl, rfl⟩
    · exact packetLoop_locked h hp

theorem Stuck.withT {s : S} (h : Stuck s) {t : T} (ht : t.inFlg = false ∧ t.eob = s.t.eob ∧ t.cancel = s.t.cancel) : Stuck { s with t := t } :=
  ⟨h.busy, h.cmd, h.dataEnd, h.cmdDone, ht.1, ht.2.1.trans h.eob, ht.2.2.trans h.cancel, h.st⟩

/-- The channel does not reset the console, and sends good parity. -/
def Spec.Calm : DOp → Prop
  | .bus t bo _ => (t.opr = true ∨ t.sup = true) ∧ parBad bo = false
  | _ => True

theorem dstep_stuck {s s' : S} {o : DOp} (h : Stuck s) (ho : Spec.Calm o) (hd : dstep s o = .ok s') : Stuck s' := by
  cases o with
  | bus t bo bi =>
    obtain ⟨⟨s1, t1, b1⟩, a, b⟩ := bind_inv hd
    have := Res.ok.inj b
    subst this
    exact (dev_stuck h ho.2 ho.1 a).1
  | fire c =>
    simp only [dstep] at hd
    split at hd
    · cases c with
      | poll =>
        have hq := tagsOut_quiet h.eob h.cancel
        simp only [pollCb, func_key] at hd
        have hin : inp s.t = .ok (s.t, none) := by
          unfold inp
          rw [if_neg (by simp [h.flag])]
        rw [hin] at hd
        have fin : ∀ (s1 : S) (o : Nat), Stuck s1 → tst o 0xa0 = false → Stuck (addEv (pollEnd s1 o) .poll) := by
          intro s1 o h1 ho
          unfold pollEnd addEv
          simp only [ho]
          repeat' split
          all_goals first
            | contradiction
            | exact ⟨h1.busy, h1.cmd, h1.dataEnd, h1.cmdDone, h1.flag, h1.eob, h1.cancel, h1.st⟩
        have hfo : tst (func s.t 0).2.1 0xa0 = false := by
          unfold func
          split
          · show tst 0 0xa0 = false
            decide
          · have : signals s.t 0 = s.t := by simp [signals, tst]
            simp only [this]
            exact hq
        split at hd
        · have := Res.ok.inj hd
          subst this
          exact fin _ _ ⟨h.busy, h.cmd, h.dataEnd, h.cmdDone, h.flag, h.eob, h.cancel, h.st⟩ hfo
        · have := Res.ok.inj hd
          subst this
          exact fin _ _ ⟨h.busy, h.cmd, h.dataEnd, h.cmdDone, h.flag, h.eob, h.cancel, h.st⟩ hfo
      | send =>
        simp only [sendCb, func_key] at hd
        have hc : tst s.cmd 1 = false := by rw [h.cmd]; rfl
        rw [if_neg (by simp [hc])] at hd
        have := Res.ok.inj hd
        subst this
        exact ⟨h.busy, h.cmd, h.dataEnd, h.cmdDone, h.flag, h.eob, h.cancel, h.st⟩
    · have := Res.ok.inj hd
      subst this
      exact h
  | packet bs =>
    obtain ⟨t1, a, b⟩ := bind_inv hd
    have := Res.ok.inj b
    subst this
    exact h.withT (packet_locked h.flag a)
  | flush =>
    have := Res.ok.inj hd
    subst this
    refine h.withT ?_
    unfold flush
    simp only
    repeat' split
    all_goals exact ⟨h.flag, rfl, rfl⟩
  | caller =>
    have := Res.ok.inj hd
    subst this
    refine h.withT ?_
    unfold connect
    split <;> exact ⟨h.flag, rfl, rfl⟩

theorem drun_stuck {os : List DOp} {s s' : S} (h : Stuck s) (ho : ∀ o ∈ os, Spec.Calm o) (hd : drun s os = .ok s') : Stuck s' := by
  induction os generalizing s with
  | nil => have := Res.ok.inj hd; subst this; exact h
  | cons o os ih =>
    obtain ⟨s1, a, b⟩ := bind_inv hd
    exact ih (dstep_stuck h (ho o List.mem_cons_self) a) (fun o h => ho o (List.mem_cons_of_mem _ h)) b

end Verif.Cons
