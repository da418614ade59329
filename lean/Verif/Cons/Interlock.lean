import Verif.Cons.Props
/-!
# The interlock of the 1052 with the channel (C87)

Every tag the device raises falls when the channel answers it, an accepted ending status frees the device, and a status
that is stacked is kept.
-/
namespace Verif.Cons
open Verif.Bus
open Verif.Card (Res)

section
variable {s s' : S} {t t' : Tags} {bo bi bi' : Nat}

/-- **C87**: status in falls when the channel answers it by service out or command out. -/
theorem C87_status_in_falls (hn : t.opr = true ∨ t.sup = true) (hs : s.st = .statusAccept ∨ s.st = .endAccept) (hr : t.srv = true ∨ t.cmd = true)
    (hd : dev s t bo bi = .ok (s', t', bi')) : t'.staIn = false := by
  unfold dev at hd
  rw [if_neg (by rcases hn with h | h <;> simp [h])] at hd
  rcases hs with hs | hs <;> rw [hs] at hd
  · simp only [statusAccept, statusAccepted] at hd
    obtain ⟨b, -, hd⟩ := bind_inv hd
    try simp only at hd
    repeat' split at hd
    all_goals
      have hd := Res.ok.inj hd
      simp only [Prod.mk.injEq] at hd
      have e := hd.2.1
      subst e
      first
        | rfl
        | (exfalso; simp_all; done)
        | (split <;> rfl)
  · simp only [endAccept, endAccepted] at hd
    obtain ⟨b, -, hd⟩ := bind_inv hd
    try simp only at hd
    repeat' split at hd
    all_goals
      have hd := Res.ok.inj hd
      simp only [Prod.mk.injEq] at hd
      have e := hd.2.1
      subst e
      first
        | rfl
        | (exfalso; simp_all; done)
        | (split <;> rfl)

/-- **C87**: service in falls when the channel answers it. -/
theorem C87_service_in_falls (hn : t.opr = true ∨ t.sup = true) (hs : s.st = .data2) (hr : t.srv = true ∨ t.cmd = true)
    (hd : dev s t bo bi = .ok (s', t', bi')) : t'.srvIn = false := by
  unfold dev at hd
  rw [if_neg (by rcases hn with h | h <;> simp [h]), hs] at hd
  simp only [data2] at hd
  obtain ⟨b, -, hd⟩ := bind_inv hd
  try simp only at hd
  split at hd
  · have hd := Res.ok.inj hd
    simp only [Prod.mk.injEq] at hd
    rw [← hd.2.1]
  · next h => exact absurd (by rcases hr with q | q <;> simp [q]) h

/-- **C87**: address in falls when the channel answers it by command out. -/
theorem C87_address_in_falls (hn : t.opr = true ∨ t.sup = true) (hs : s.st = .command) (hr : t.cmd = true)
    (hd : dev s t bo bi = .ok (s', t', bi')) : t'.adrIn = false := by
  unfold dev at hd
  rw [if_neg (by rcases hn with h | h <;> simp [h]), hs] at hd
  simp only [command, hr, if_true, commandOut, Res.ok.injEq] at hd
  repeat' split at hd
  all_goals
    simp only [Prod.mk.injEq] at hd
    rw [← hd.2.1]

/-- **C87**: when the status that ends a command is accepted, the device is free again and lets go of the interface. -/
theorem C87_free_again (hn : t.opr = true ∨ t.sup = true) (hs : s.st = .statusAccept ∨ s.st = .endAccept) (hc : t.cmd = false) (hr : t.srv = true) (hf : s.cmdDone = true)
    (hd : dev s t bo bi = .ok (s', t', bi')) : s'.busy = false ∧ s'.status = 0 ∧ s'.stacked = false ∧ s'.cmdDone = false ∧ s'.st = .statusWait ∧ t'.oprIn = false := by
  unfold dev at hd
  rw [if_neg (by rcases hn with h | h <;> simp [h])] at hd
  rcases hs with hs | hs <;> rw [hs] at hd
  · simp only [statusAccept, statusAccepted, hc, hr, hf] at hd
    obtain ⟨b, -, hd⟩ := bind_inv hd
    have hd := Res.ok.inj hd
    simp only [if_true, Bool.true_or, Prod.mk.injEq] at hd
    rw [← hd.1, ← hd.2.1]
    exact ⟨rfl, rfl, rfl, rfl, rfl, rfl⟩
  · simp only [endAccept, endAccepted, hc, hr, hf] at hd
    obtain ⟨b, -, hd⟩ := bind_inv hd
    have hd := Res.ok.inj hd
    simp only [if_true, Prod.mk.injEq] at hd
    rw [← hd.1, ← hd.2.1]
    exact ⟨rfl, rfl, rfl, rfl, rfl, rfl⟩

/-- **C87**: a status the channel stacks is kept, and offered again. -/
theorem C87_stacked_kept (hn : t.opr = true ∨ t.sup = true) (hs : s.st = .statusAccept ∨ s.st = .endAccept) (hr : t.cmd = true)
    (hd : dev s t bo bi = .ok (s', t', bi')) : s'.status = s.status ∧ s'.stacked = true ∧ t'.oprIn = false ∧ s'.busy = s.busy ∧ s'.cmd = s.cmd := by
  unfold dev at hd
  rw [if_neg (by rcases hn with h | h <;> simp [h])] at hd
  rcases hs with hs | hs <;> rw [hs] at hd
  · simp only [statusAccept, hr, if_true] at hd
    obtain ⟨b, -, hd⟩ := bind_inv hd
    have hd := Res.ok.inj hd
    simp only [Prod.mk.injEq] at hd
    rw [← hd.1, ← hd.2.1]
    exact ⟨rfl, rfl, rfl, rfl, rfl⟩
  · simp only [endAccept, hr, if_true] at hd
    obtain ⟨b, -, hd⟩ := bind_inv hd
    have hd := Res.ok.inj hd
    simp only [Prod.mk.injEq] at hd
    rw [← hd.1, ← hd.2.1]
    exact ⟨rfl, rfl, rfl, rfl, rfl⟩

/-- **C87**: an idle device with stacked status asks for service whenever nobody is selected and it is not suppressed. -/
theorem C87_stacked_asks (hn : t.opr = true) (hs : s.st = .idle) (hk : s.stacked = true) (h1 : t.oprIn = false) (h2 : t.sup = false) (h3 : t.adr = false) (h4 : t.sel = false)
    (hd : dev s t bo bi = .ok (s', t', bi')) : t'.reqIn = true ∧ s'.st = .idle := by
  unfold dev at hd
  rw [if_neg (by simp [hn]), hs] at hd
  simp [idle, hn, hk, h1, h2, h3, h4] at hd
  rw [← hd.1, ← hd.2.1]
  exact ⟨rfl, hs⟩

end

/-- The hypotheses are met: a device that has just rejected a command. -/
example : ∃ s : S, s.st = .statusAccept ∧ s.cmdDone = true ∧ ∃ r, dev s { opr := true, srv := true, oprIn := true, staIn := true } 0 0 = .ok r :=
  ⟨{ init 0x0a with st := .statusAccept, cmdDone := true, status := 0x0e }, rfl, rfl, _, rfl⟩

end Verif.Cons
