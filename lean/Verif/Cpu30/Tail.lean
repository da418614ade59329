import Verif.Cpu30.Frame
import Verif.Cpu30.Alu
/-! The part of a cycle after storage control: what it does to R, Q, S, storage and the latches. -/
namespace Verif.Cpu30

/-- R is not to be changed (cpu2030.c 1944). -/
def blocked (s : S) : Bool := (s.a.allowWrite && s.l.protectLoc) || s.l.memProt

theorem dest_R {w : Ros} {tc : Bool} {o k : Nat} {s s' : S} (h : dest w tc o k s = .ok s') :
    s'.r.R = (if w.CD = 7 ∧ blocked s = false then o else s.r.R) ∧ s'.r.Q = (if w.CD = 3 then o % 256 else s.r.Q) ∧
      s'.r.S = (if w.CD = 6 then o % 256 else s.r.S) ∧
      s'.l.protectLoc = s.l.protectLoc ∧ s'.l.memProt = s.l.memProt ∧ s'.l.inhStgProt = s.l.inhStgProt ∧
      s'.evenParity = s.evenParity ∧ s'.l.stgProtReq = (s.l.stgProtReq || (w.CD == 7 && blocked s)) ∧ (∀ i, s.r.MC.testBit i = true → s'.r.MC.testBit i = true) ∧
      s'.aluChk = s.aluChk := by
  unfold dest at h
  split at h
  case h_7 hc =>
    rw [hc]
    split at h
    case isTrue hb =>
      cases h
      have hb2 : blocked s = true := hb
      simp [hb2]
    case isFalse hb =>
      simp only [badParity_spec, ok_bind] at h
      cases h
      have hb2 : blocked s = false := by simpa [blocked] using hb
      simp [hb2]
      split
      · exact fun _ h => h
      · intro i hi
        rw [Nat.testBit_or, hi]
        rfl
  case h_5 hc =>
    rw [hc]
    simp only at h
    have h2 := Res.ok.inj h
    rw [← h2]
    split
    · split <;> simp
    · simp
  case h_13 hc =>
    rw [hc]
    unfold wrapU at h
    simp only at h
    have h2 := Res.ok.inj h
    rw [← h2]
    (repeat' split) <;> simp_all
  case h_15 hc =>
    rw [hc]
    unfold wrapI at h
    simp only at h
    have h2 := Res.ok.inj h
    rw [← h2]
    (repeat' split) <;> simp_all
  case h_16 =>
    cases h
    have h1 : w.CD ≠ 7 := by assumption
    have h2 : w.CD ≠ 3 := by assumption
    have h3 : w.CD ≠ 6 := by assumption
    simp [h1, h2, h3]
  all_goals (rename_i hc; rw [hc]; cases h; simp [and_ff])


/-- What happens to R, Q, S, storage, addresses and protection latches after storage control. -/
theorem tail_frame {e : Env} {w : Ros} {s s' : S} (p : Phases e w s s') :
    s'.m = p.s2.m ∧ s'.a = p.s2.a ∧ s'.r.R = (if w.CD = 7 ∧ blocked p.s2 = false then p.o else p.s2.r.R) ∧
      s'.r.Q = (if w.CD = 3 then p.o % 256 else p.s2.r.Q) ∧ s'.l.protectLoc = p.s2.l.protectLoc ∧ s'.l.memProt = p.s2.l.memProt ∧
      s'.l.inhStgProt = p.s2.l.inhStgProt ∧ s'.l.stgProtReq = (p.s2.l.stgProtReq || (w.CD == 7 && blocked p.s2)) := by
  obtain ⟨k1, k2, k3, k4, k5, k6, k7⟩ := ckFunc_K w (step e w p.s2)
  have kl : (ckFunc w (step e w p.s2)).l.protectLoc = p.s2.l.protectLoc ∧ (ckFunc w (step e w p.s2)).l.memProt = p.s2.l.memProt ∧
      (ckFunc w (step e w p.s2)).l.inhStgProt = p.s2.l.inhStgProt ∧ (ckFunc w (step e w p.s2)).l.stgProtReq = p.s2.l.stgProtReq ∧
      (ckFunc w (step e w p.s2)).r.Q = p.s2.r.Q := by
    unfold ckFunc
    split <;> exact ⟨rfl, rfl, rfl, rfl, rfl⟩
  obtain ⟨m3, e3⟩ := busB_K p.bB
  obtain ⟨m4, c4, gr, ge, e4⟩ := busA_K p.bA
  obtain ⟨x, y, e5⟩ := decLatch_K w p.s4
  have h5 := (dest_K p.hDest).2
  obtain ⟨d1, d2, d3, d4, d5, d6, d7, d8, -⟩ := dest_R p.hDest
  obtain ⟨x7, y7, e7⟩ := carrySave_K w p.k p.s5
  obtain ⟨x8, y8, z8, v8, c8, e8⟩ := csFunc_K e w p.o (carrySave w p.k p.s5)
  obtain ⟨m9, t9, e9⟩ := finish_K p.fin
  have hm : s'.m = p.s5.m := (congrArg S.m e9).trans (by rw [e8, e7])
  have ha : s'.a = p.s5.a := (congrArg S.a e9).trans (by rw [e8, e7])
  have hl : s'.l = p.s5.l := (congrArg S.l e9).trans (by rw [e8, e7])
  have hR : s'.r.R = p.s5.r.R := (congrArg (·.r.R) e9).trans (by rw [e8, e7])
  have hQ : s'.r.Q = p.s5.r.Q := (congrArg (·.r.Q) e9).trans (by rw [e8, e7])
  have q4 : (decLatch w p.s4).m = p.s2.m ∧ (decLatch w p.s4).a = p.s2.a ∧ (decLatch w p.s4).r.R = p.s2.r.R ∧
      (decLatch w p.s4).r.Q = p.s2.r.Q ∧ (decLatch w p.s4).l.protectLoc = p.s2.l.protectLoc ∧
      (decLatch w p.s4).l.memProt = p.s2.l.memProt ∧ (decLatch w p.s4).l.inhStgProt = p.s2.l.inhStgProt ∧
      (decLatch w p.s4).l.stgProtReq = p.s2.l.stgProtReq := by
    rw [e5]
    simp only
    rw [e4]
    simp only
    rw [e3]
    simp only
    exact ⟨k6, k7, k2, kl.2.2.2.2, kl.1, kl.2.1, kl.2.2.1, kl.2.2.2.1⟩
  obtain ⟨q1, q2, q3, q5, q6, q7, q8, q9⟩ := q4
  have hb : blocked (decLatch w p.s4) = blocked p.s2 := by unfold blocked; rw [q2, q6, q7]
  rw [hm, ha, hR, hQ, hl, h5.1, h5.2, d1, d2, d4, d5, d6, d8, hb]
  exact ⟨q1, q2, by rw [q3], by rw [q5], q6, q7, q8, by rw [q9]⟩

/-- The result of the adder has odd parity exactly when even parity is not requested. -/
theorem alu_parity {w : Ros} {sreg : Nat} {even : Bool} {a b o k : Nat} (h : alu w sreg even a b = .ok (o, k)) :
    o < 512 ∧ (Good o ↔ even = false) := by
  unfold alu at h
  obtain ⟨bf, -, h⟩ := bind_ok h
  simp only at h
  obtain ⟨p, hp, h⟩ := bind_ok h
  obtain ⟨p', hp', h1, h2, h3⟩ := withParity_spec _ even (odd_ok_lt hp)
  rw [hp] at hp'
  cases hp'
  have := (Prod.mk.inj (Res.ok.inj h)).1
  rw [← this]
  exact ⟨h1, h3⟩

/-- The inputs of the adder in a cycle. -/
theorem cycle_S {e : Env} {w : Ros} {s s' : S} (p : Phases e w s s') : p.s4.r.S = s.r.S := by
  obtain ⟨m3, e3⟩ := busB_K p.bB
  obtain ⟨m4, c4, gr, ge, e4⟩ := busA_K p.bA
  rw [e4]
  simp only
  rw [e3]
  simp only
  rw [(ckFunc_K w _).2.2.1]
  show p.s2.r.S = _
  have := (memCtl_K p.ctl).2.1
  have h1 : p.s2.r.S = p.s1.r.S := congrArg (·.2.1) this
  rw [h1, (memRead_K p.read).2.1]

theorem cycle_even {e : Env} {w : Ros} {s s' : S} (p : Phases e w s s') :
    p.s4.evenParity = (ckFunc w (step e w p.s2)).evenParity ∧ p.s2.evenParity = s.evenParity := by
  obtain ⟨m3, e3⟩ := busB_K p.bB
  obtain ⟨m4, c4, gr, ge, e4⟩ := busA_K p.bA
  constructor
  · rw [e4]
    simp only
    rw [e3]
  · have := (memCtl_K p.ctl).2.1
    have h1 : p.s2.evenParity = p.s1.evenParity := congrArg (·.2.2) this
    rw [h1, (memRead_K p.read).2.2.1]

theorem cycle_even' {e : Env} {w : Ros} {s s' : S} (p : Phases e w s s') : s'.evenParity = p.s4.evenParity := by
  obtain ⟨x, y, e5⟩ := decLatch_K w p.s4
  obtain ⟨d1, d2, d3, d4, d5, d6, d7, d8, -⟩ := dest_R p.hDest
  obtain ⟨x7, y7, e7⟩ := carrySave_K w p.k p.s5
  obtain ⟨x8, y8, z8, v8, c8, e8⟩ := csFunc_K e w p.o (carrySave w p.k p.s5)
  obtain ⟨m9, t9, e9⟩ := finish_K p.fin
  have hl : s'.evenParity = p.s5.evenParity := (congrArg S.evenParity e9).trans (by rw [e8, e7])
  rw [hl, d7, e5]

end Verif.Cpu30
