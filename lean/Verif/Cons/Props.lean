import Verif.Cons.Select
/-!
# Reset and the sense command of the 1052 (C82, C86)
-/
namespace Verif.Cons
open Verif.Bus
open Verif.Card (Res)

/-! ## C86 -/

/-- **C86**, violated: the sense command gets initial status zero and is never answered: whatever the channel does
afterwards short of a reset, whatever is typed and whichever events fire, the console stays busy and never offers a
byte. -/
theorem C86_violated_sense_never_answers (s : S) (bi : Nat) (hold : Bool) (h : Spec.AtRest s) (hk : s.t.inFlg = false ∧ s.t.eob = false ∧ s.t.cancel = false) :
    ∃ L, Bus.Spec.initialSelection dev ⟨s, Bus.Spec.rest, bi⟩ (s.addr % 256) 4 hold = .ok L ∧ L.bi = Bus.Spec.byte 0 ∧
      ∀ os s', (∀ o ∈ os, Spec.Calm o) → drun L.s os = .ok s' →
        s'.busy = true ∧ ∀ t bo bi s'' t' bi', Spec.Calm (.bus t bo bi) → dev s' t bo bi = .ok (s'', t', bi') → t.srvIn = false → t'.srvIn = false := by
  have e : selectedWith s 4 = { s with st := .status, selected := true, request := false, stacked := false, cmd := 4, status := 0, cmdDone := false, data := s.sense, dataRdy := true, dataEnd := true, busy := true } := by
    simp [selectedWith, deviceCmd, h.busy, tst]
  refine ⟨_, initialSelection_eq s bi 4 hold h (by decide), by rw [e], ?_⟩
  intro os s' ho hd
  have hs : Stuck { selectedWith s 4 with st := .statusAccept } := by
    rw [e]
    exact ⟨rfl, rfl, rfl, rfl, hk.1, hk.2.1, hk.2.2, by simp⟩
  have hs' := drun_stuck hs ho hd
  refine ⟨hs'.busy, ?_⟩
  intro t bo bi s'' t' bi' hc hdev h0
  have := (dev_stuck hs' hc.2 hc.1 hdev).2
  cases h1 : t'.srvIn with
  | false => rfl
  | true => rw [this h1] at h0; cases h0

/-- A channel that accepts the initial status and then polls for ever: the histories of the theorem exist. -/
example : ∃ L, Bus.Spec.initialSelection dev ⟨init 0x1f, Bus.Spec.rest, 0⟩ 0x1f 4 false = .ok L ∧
    ∃ s', drun L.s [.bus { L.t with srv := true } 0x100 0, .bus { Bus.Spec.rest with oprIn := true } 0x100 0, .fire .poll, .bus Bus.Spec.rest 0x100 0, .packet [65]] = .ok s' ∧ s'.st = .idle :=
  ⟨_, initialSelection_eq (init 0x1f) 0 4 false ⟨rfl, rfl, rfl, rfl, rfl⟩ (by decide), _, rfl, rfl⟩

example : Spec.Calm (.bus { Bus.Spec.rest with srv := true } 0x100 0) := ⟨Or.inl rfl, by decide⟩

/-! ## C82 -/

/-- A console that is neither idle nor answering busy is selected. -/
def SelInv (s : S) : Prop := s.st ≠ .idle → s.st ≠ .busy → s.selected = true

theorem takeByte_sel (s : S) (bo : Nat) : (takeByte s bo).selected = s.selected := by
  unfold takeByte addEv; split <;> rfl

theorem endSignal_sel (s : S) : (endSignal s).selected = s.selected := by
  unfold endSignal signal; split <;> rfl

theorem deviceCmd_sel (s : S) (b : Nat) : (deviceCmd s b).selected = s.selected := by
  unfold deviceCmd invalid signal
  simp only
  repeat' split
  all_goals rfl

theorem dev_selInv {s s' : S} {t t' : Tags} {bo bi bi' : Nat} (h : SelInv s) (hd : dev s t bo bi = .ok (s', t', bi')) : SelInv s' := by
  have key : s'.selected = true ∨ s'.st = .idle ∨ s'.st = .busy := by
    unfold dev at hd
    split at hd
    · simp only [Res.ok.injEq, Prod.mk.injEq] at hd
      rw [← hd.1]; exact Or.inr (Or.inl rfl)
    · have hsel : s.st = .idle ∨ s.st = .busy ∨ s.selected = true := by
        by_cases h1 : s.st = .idle
        · exact Or.inl h1
        · by_cases h2 : s.st = .busy
          · exact Or.inr (Or.inl h2)
          · exact Or.inr (Or.inr (h h1 h2))
      cases hs : s.st <;> rw [hs] at hd hsel <;> simp only [reduceCtorEq, false_or, true_or, or_true, Res.ok.injEq] at hd hsel
      · unfold idle idleAddressed at hd
        simp only at hd
        repeat' split at hd
        all_goals
          simp only [Prod.mk.injEq] at hd
          rw [← hd.1]
          simp_all
      · unfold busyState at hd
        simp only at hd
        repeat' split at hd
        all_goals
          simp only [Prod.mk.injEq] at hd
          rw [← hd.1]
          simp_all
      · unfold initSel at hd
        simp only at hd
        repeat' split at hd
        all_goals
          simp only [Prod.mk.injEq] at hd
          rw [← hd.1]
          exact Or.inl hsel
      · unfold command commandOut signal at hd
        simp only at hd
        repeat' split at hd
        all_goals
          simp only [Prod.mk.injEq] at hd
          rw [← hd.1]
          first | exact Or.inl hsel | exact Or.inl ((deviceCmd_sel _ _).trans hsel)
      · unfold status signal at hd
        obtain ⟨b, -, hd⟩ := bind_inv hd
        have hd := Res.ok.inj hd
        simp only [Prod.mk.injEq] at hd
        rw [← hd.1]
        split <;> exact Or.inl hsel
      · unfold statusAccept statusAccepted at hd
        obtain ⟨b, -, hd⟩ := bind_inv hd
        simp only at hd
        repeat' split at hd
        all_goals
          have hd := Res.ok.inj hd
          simp only [Prod.mk.injEq] at hd
          rw [← hd.1]
          exact Or.inl hsel
      · unfold statusWait at hd
        simp only at hd
        repeat' split at hd
        all_goals
          simp only [Prod.mk.injEq] at hd
          rw [← hd.1]
          first | exact Or.inl hsel | exact Or.inr (Or.inl rfl)
      · unfold endStatus at hd
        simp only at hd
        split at hd
        · have hd := Res.ok.inj hd
          simp only [Prod.mk.injEq] at hd
          rw [← hd.1]
          exact Or.inl hsel
        · obtain ⟨b, -, hd⟩ := bind_inv hd
          have hd := Res.ok.inj hd
          simp only [Prod.mk.injEq] at hd
          rw [← hd.1]
          exact Or.inl hsel
      · unfold endAccept endAccepted at hd
        obtain ⟨b, -, hd⟩ := bind_inv hd
        simp only at hd
        repeat' split at hd
        all_goals
          have hd := Res.ok.inj hd
          simp only [Prod.mk.injEq] at hd
          rw [← hd.1]
          exact Or.inl hsel
      · unfold waitDevend at hd
        simp only at hd
        repeat' split at hd
        all_goals
          simp only [Prod.mk.injEq] at hd
          rw [← hd.1]
          exact Or.inl hsel
      · unfold opr at hd
        simp only at hd
        repeat' split at hd
        all_goals
          simp only [Prod.mk.injEq] at hd
          rw [← hd.1]
          first | exact Or.inl hsel | exact Or.inr (Or.inl rfl) | exact Or.inl ((endSignal_sel _).trans hsel)
      · unfold data1 at hd
        simp only at hd
        split at hd
        · have hd := Res.ok.inj hd
          simp only [Prod.mk.injEq] at hd
          rw [← hd.1]
          exact Or.inl hsel
        · split at hd
          · have hd := Res.ok.inj hd
            simp only [Prod.mk.injEq] at hd
            rw [← hd.1]
            exact Or.inl hsel
          · obtain ⟨b, -, hd⟩ := bind_inv hd
            have hd := Res.ok.inj hd
            simp only [Prod.mk.injEq] at hd
            rw [← hd.1]
            exact Or.inl hsel
      · unfold data2 at hd
        obtain ⟨b, -, hd⟩ := bind_inv hd
        simp only at hd
        split at hd
        · have hd := Res.ok.inj hd
          simp only [Prod.mk.injEq] at hd
          rw [← hd.1]
          left
          have q := takeByte_sel { s with dataRdy := false } bo
          simp only at q
          split <;> split <;> first | exact q.trans hsel | exact hsel
        · have hd := Res.ok.inj hd
          simp only [Prod.mk.injEq] at hd
          rw [← hd.1]
          exact Or.inl hsel
  intro h1 h2
  rcases key with k | k | k
  · exact k
  · exact absurd k h1
  · exact absurd k h2

theorem dstep_selInv {s s' : S} {o : DOp} (h : SelInv s) (hd : dstep s o = .ok s') : SelInv s' := by
  cases o with
  | bus t bo bi =>
    obtain ⟨⟨s1, t1, b1⟩, a, b⟩ := bind_inv hd
    have := Res.ok.inj b
    subst this
    exact dev_selInv h a
  | fire c =>
    have key : s'.st = s.st ∧ s'.selected = s.selected := by
      simp only [dstep] at hd
      split at hd
      · cases c with
        | poll =>
          obtain ⟨s1, a, b⟩ := bind_inv hd
          have e : s1.st = s.st ∧ s1.selected = s.selected := by
            split at a
            · obtain ⟨q, -, a⟩ := bind_inv a
              have := Res.ok.inj a
              subst this
              exact ⟨rfl, rfl⟩
            · have := Res.ok.inj a
              subst this
              exact ⟨rfl, rfl⟩
          have := Res.ok.inj b
          subst this
          unfold pollEnd addEv
          simp only
          repeat' split
          all_goals exact e
        | send =>
          simp only [sendCb] at hd
          split at hd
          · obtain ⟨q, -, hd⟩ := bind_inv hd
            have := Res.ok.inj hd
            subst this
            exact ⟨rfl, rfl⟩
          · have := Res.ok.inj hd
            subst this
            exact ⟨rfl, rfl⟩
      · have := Res.ok.inj hd
        subst this
        exact ⟨rfl, rfl⟩
    intro h1 h2
    rw [key.2]
    exact h (by rw [← key.1]; exact h1) (by rw [← key.1]; exact h2)
  | packet bs =>
    obtain ⟨t1, a, b⟩ := bind_inv hd
    have := Res.ok.inj b
    subst this
    exact h
  | flush => have := Res.ok.inj hd; subst this; exact h
  | caller => have := Res.ok.inj hd; subst this; exact h

theorem drun_selInv {os : List DOp} {s s' : S} (h : SelInv s) (hd : drun s os = .ok s') : SelInv s' := by
  induction os generalizing s with
  | nil => have := Res.ok.inj hd; subst this; exact h
  | cons o os ih =>
    obtain ⟨s1, a, b⟩ := bind_inv hd
    exact ih (dstep_selInv h a) b

/-- **C82** (part): after any history from power on, dropping operational out and suppress out stops the command: the
console is idle, not busy, does not ask for service, has no data to give and no sense; with a terminal connected the
keyboard is locked, what was typed and not read is gone and attention is cleared; its in-tags drop unless it was idle
or answering busy.  Missing: status waiting for the channel survives, see `C82_violated_status_survives`. -/
theorem C82_reset_partial (s : S) (hr : Spec.DReachable s) (t : Tags) (bo bi : Nat) (ho : t.opr = false) (hs : t.sup = false) :
    ∃ s' t', dev s t bo bi = .ok (s', t', bi) ∧ s'.st = .idle ∧ s'.busy = false ∧ s'.request = false ∧ s'.selected = false ∧ s'.sense = 0 ∧ s'.dataRdy = false ∧ .poll ∈ s'.evs ∧
      (s.t.cons = true → s'.t.inFlg = false ∧ pending s'.t = [] ∧ s'.t.attn = false ∧ s'.t.cancel = false ∧ s'.t.eob = false) ∧
      Bus.Spec.outKept t t' ∧ (s.st ≠ .idle → s.st ≠ .busy → Bus.Spec.inDown t') := by
  obtain ⟨addr, os, hr⟩ := hr
  have hi : SelInv s := drun_selInv (fun h => absurd rfl h) hr
  refine ⟨reset s, if s.selected then { t with oprIn := false, adrIn := false, srvIn := false, staIn := false } else t, ?_, rfl, rfl, rfl, rfl, rfl, rfl, ?_, ?_, ?_, ?_⟩
  · unfold dev; rw [if_pos ⟨ho, hs⟩]
  · simp [reset, addEv]
  · intro hc
    have e : (reset s).t = { clear s.t with attn := false } := by
      simp [reset, addEv, cancelEv, signal, func, hc, signals, tst]
    rw [e]
    refine ⟨rfl, ?_, rfl, rfl, rfl⟩
    simp [pending, clear]
  · split <;> simp [Bus.Spec.outKept]
  · intro h1 h2
    rw [hi h1 h2]
    exact ⟨rfl, rfl, rfl, rfl⟩

/-- **C82**, violated: a status the channel did not take (the console is idle with stacked status) survives a reset, and
the console asks for service with it as soon as operational out is up again. -/
theorem C82_violated_status_survives (s : S) (t : Tags) (bo bi : Nat) (ho : t.opr = false ∧ t.sup = false) (hk : s.stacked = true) :
    ∃ s1 t1, dev s t bo bi = .ok (s1, t1, bi) ∧ s1.status = s.status ∧ s1.stacked = true ∧
      ∃ s2, dev s1 Bus.Spec.rest 0 0 = .ok (s2, { Bus.Spec.rest with reqIn := true }, 0) := by
  refine ⟨reset s, if s.selected then { t with oprIn := false, adrIn := false, srvIn := false, staIn := false } else t, ?_, rfl, hk, reset s, ?_⟩
  · unfold dev; rw [if_pos ho]
  · have h1 : (reset s).st = .idle := rfl
    have h2 : (reset s).stacked = true := hk
    unfold dev
    rw [if_neg (by simp [Bus.Spec.rest]), h1]
    simp [idle, Bus.Spec.rest, h2]

/-- Such a console is reached: no operation, and the channel stacks its status. -/
example : ∃ s, Spec.DReachable s ∧ s.stacked = true ∧ s.status = 0x0c ∧ s.st = .idle :=
  ⟨_, ⟨0x1f, [.bus { opr := true, adr := true, sel := true } 0x1f 0, .bus { opr := true, oprIn := true } 0x1f 0, .bus { opr := true, oprIn := true, adrIn := true, cmd := true } 0x103 0,
      .bus { opr := true, oprIn := true } 0 0, .bus { opr := true, oprIn := true, staIn := true, cmd := true } 0x100 0, .bus { opr := true } 0 0], rfl⟩, rfl, rfl, rfl⟩

end Verif.Cons
