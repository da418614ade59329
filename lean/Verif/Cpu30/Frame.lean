import Verif.Cpu30.Basic
/-! What each phase of a cycle leaves unchanged. -/
namespace Verif.Cpu30

/-- The registers only the adder loads. -/
def K (s : S) : List Nat := [s.r.D, s.r.L, s.r.G, s.r.T, s.r.V, s.r.U, s.r.J, s.r.I, s.r.H]

/-- R, S and the even parity latch. -/
def RS (s : S) : Nat × Nat × Bool := (s.r.R, s.r.S, s.evenParity)

theorem keyCheck_K {w : Ros} {s s' : S} (h : keyCheck w s = .ok s') : K s' = K s ∧ s'.r.S = s.r.S ∧ s'.evenParity = s.evenParity ∧ s'.c = s.c ∧ s'.q = s.q := by
  unfold keyCheck at h
  obtain ⟨k, -, h⟩ := bind_ok h
  simp only at h
  split at h <;> (cases h; exact ⟨rfl, rfl, rfl, rfl, rfl⟩)

theorem readOut_K {w : Ros} {s s' : S} (h : readOut w s = .ok s') : K s' = K s ∧ s'.r.S = s.r.S ∧ s'.evenParity = s.evenParity ∧ s'.q = s.q := by
  unfold readOut at h
  split at h <;>
  · obtain ⟨v, -, h⟩ := bind_ok h
    obtain ⟨m, -, h⟩ := bind_ok h
    split at h <;> (cases h; exact ⟨rfl, rfl, rfl, rfl⟩)

theorem checkMN_K {s s' : S} (h : checkMN s = .ok s') : ∃ m b, s' = { s with r := { s.r with MC := m }, l := { s.l with memProt := b } } := by
  unfold checkMN at h
  simp only [badParity_spec, ok_bind] at h
  split at h <;> cases h
  · exact ⟨_, _, rfl⟩
  · exact ⟨s.r.MC, s.l.memProt, rfl⟩

theorem readCheck_K {s s' : S} (h : readCheck s = .ok s') :
    ∃ m b, s' = { s with r := { s.r with MC := m }, l := { s.l with protectLoc := false, memProt := b, stgProtReq := false } } := by
  unfold readCheck at h
  obtain ⟨s1, h1, h⟩ := bind_ok h
  obtain ⟨m, b, rfl⟩ := checkMN_K h1
  split at h <;> cases h <;> exact ⟨_, _, rfl⟩

theorem memRead_K {w : Ros} {s s' : S} (h : memRead w s = .ok s') : K s' = K s ∧ s'.r.S = s.r.S ∧ s'.evenParity = s.evenParity ∧ s'.q = s.q := by
  unfold memRead at h
  split at h
  · obtain ⟨s1, h1, h⟩ := bind_ok h
    obtain ⟨s2, h2, h⟩ := bind_ok h
    obtain ⟨s3, h3, h⟩ := bind_ok h
    cases h
    obtain ⟨m, b, rfl⟩ := readCheck_K h1
    have e3 : K s3 = K s2 ∧ s3.r.S = s2.r.S ∧ s3.evenParity = s2.evenParity ∧ s3.q = s2.q := by
      split at h3
      · exact readOut_K h3
      · cases h3; exact ⟨rfl, rfl, rfl, rfl⟩
    have e2 : K s2 = K s ∧ s2.r.S = s.r.S ∧ s2.evenParity = s.evenParity ∧ s2.q = s.q := by
      split at h2
      · obtain ⟨a, b, c, -, d⟩ := keyCheck_K h2
        exact ⟨a, b, c, d⟩
      · cases h2
        exact ⟨rfl, rfl, rfl, rfl⟩
    obtain ⟨a, b, c, d⟩ := e3
    obtain ⟨a2, b2, c2, d2⟩ := e2
    exact ⟨a.trans a2, b.trans b2, c.trans c2, d.trans d2⟩
  · cases h; exact ⟨rfl, rfl, rfl, rfl⟩

theorem writeBack_K {w : Ros} {s s' : S} (h : writeBack w s = .ok s') : K s' = K s ∧ RS s' = RS s ∧ s'.q = s.q ∧ s'.c = s.c := by
  unfold writeBack at h
  split at h
  · obtain ⟨m, -, h⟩ := bind_ok h
    cases h; exact ⟨rfl, rfl, rfl, rfl⟩
  · cases h; exact ⟨rfl, rfl, rfl, rfl⟩

theorem setMN_K {w : Ros} {s s' : S} (h : setMN w s = .ok s') : K s' = K s ∧ RS s' = RS s ∧ s'.q = s.q ∧ s'.c = s.c ∧ s'.m = s.m := by
  unfold setMN at h
  simp only at h
  split at h
  any_goals (cases h; exact ⟨rfl, rfl, rfl, rfl, rfl⟩)
  obtain ⟨p, -, h⟩ := bind_ok h
  cases h; exact ⟨rfl, rfl, rfl, rfl, rfl⟩

theorem selStore_K {w : Ros} {s s' : S} (h : selStore w s = .ok s') :
    ∃ st m sa b, s' = { s with a := { s.a with store := st, M := m, SA := sa }, l := { s.l with memWrapReq := b } } := by
  unfold selStore at h
  simp only at h
  split at h
  · cases h; exact ⟨_, _, _, _, rfl⟩
  · obtain ⟨p, -, h1⟩ := bind_ok h
    cases h1; exact ⟨_, _, _, _, rfl⟩
  · obtain ⟨p, -, h1⟩ := bind_ok h
    cases h1; exact ⟨_, _, _, _, rfl⟩
  · split at h
    · obtain ⟨p, -, h1⟩ := bind_ok h
      cases h1; exact ⟨_, _, _, _, rfl⟩
    · cases h; exact ⟨_, _, _, _, rfl⟩

theorem setAddr_K (s : S) : ∃ a, setAddr s = { s with a := a } := by
  unfold setAddr
  simp only
  split <;> exact ⟨_, rfl⟩

theorem request_K {w : Ros} {s s' : S} (h : request w s = .ok s') : K s' = K s ∧ RS s' = RS s ∧ s'.q = s.q ∧ s'.c = s.c ∧ s'.m = s.m := by
  unfold request at h
  split at h
  · cases h; exact ⟨rfl, rfl, rfl, rfl, rfl⟩
  · obtain ⟨s1, h1, h⟩ := bind_ok h
    obtain ⟨st, m, sa, b, rfl⟩ := selStore_K h1
    obtain ⟨m2, b2, rfl⟩ := checkMN_K h
    obtain ⟨a, ha⟩ := setAddr_K { s with a := { s.a with store := st, M := m, SA := sa }, l := { s.l with memWrapReq := b } }
    rw [ha]
    exact ⟨rfl, rfl, rfl, rfl, rfl⟩

theorem memCtl_K {w : Ros} {s s' : S} (h : memCtl w s = .ok s') : K s' = K s ∧ RS s' = RS s ∧ s'.q = s.q ∧ s'.c = s.c := by
  unfold memCtl at h
  obtain ⟨s1, h1, h⟩ := bind_ok h
  obtain ⟨s2, h2, h⟩ := bind_ok h
  obtain ⟨a3, b3, c3, d3, -⟩ := request_K h
  obtain ⟨a2, b2, c2, d2, -⟩ := setMN_K h2
  have : K s1 = K s ∧ RS s1 = RS s ∧ s1.q = s.q ∧ s1.c = s.c := by
    split at h1
    · exact writeBack_K h1
    · cases h1; exact ⟨rfl, rfl, rfl, rfl⟩
  obtain ⟨a1, b1, c1, d1⟩ := this
  exact ⟨a3.trans (a2.trans a1), b3.trans (b2.trans b1), c3.trans (c2.trans c1), d3.trans (d2.trans d1)⟩

theorem ckFunc_K (w : Ros) (s : S) : K (ckFunc w s) = K s ∧ (ckFunc w s).r.R = s.r.R ∧ (ckFunc w s).r.S = s.r.S ∧ (ckFunc w s).c = s.c ∧
    (ckFunc w s).q = s.q ∧ (ckFunc w s).m = s.m ∧ (ckFunc w s).a = s.a := by
  unfold ckFunc
  split <;> exact ⟨rfl, rfl, rfl, rfl, rfl, rfl, rfl⟩

/-- The even parity latch is set only by CK = 18. -/
theorem ckFunc_even (w : Ros) (s : S) (h : w.CK ≠ 0x18) (he : s.evenParity = false) : (ckFunc w s).evenParity = false := by
  unfold ckFunc
  split <;> first | rfl | exact he | contradiction

theorem busB_K {e : Env} {w : Ros} {s s' : S} {b : Nat} (h : busB e w s = .ok (b, s')) :
    ∃ m, s' = { s with r := { s.r with MC := m } } := by
  unfold busB at h
  obtain ⟨x, -, h⟩ := bind_ok h
  simp only [badParity_spec, ok_bind] at h
  split at h <;> cases h
  · exact ⟨_, rfl⟩
  · exact ⟨s.r.MC, rfl⟩

theorem srcA_K {e : Env} {w : Ros} {s s' : S} {x : Nat × Bool} (h : srcA e w s = .ok (x.1, x.2, s')) :
    ∃ m gr ge, s' = { s with r := { s.r with C := m }, c := { s.c with GR := gr, GE := ge } } := by
  unfold srcA at h
  split at h
  any_goals (have h2 := (Prod.mk.inj (Prod.mk.inj (Res.ok.inj h)).2).2; subst h2; exact ⟨_, _, _, rfl⟩)
  any_goals (obtain ⟨p, -, h⟩ := bind_ok h; have h2 := (Prod.mk.inj (Prod.mk.inj (Res.ok.inj h)).2).2; subst h2; exact ⟨_, _, _, rfl⟩)
  · simp only [badParity_spec, ok_bind] at h
    have h2 := (Prod.mk.inj (Prod.mk.inj (Res.ok.inj h)).2).2
    subst h2
    split <;> split <;> exact ⟨_, _, _, rfl⟩
  · split at h
    any_goals (have h2 := (Prod.mk.inj (Prod.mk.inj (Res.ok.inj h)).2).2; subst h2; exact ⟨_, _, _, rfl⟩)
    any_goals (obtain ⟨p, -, h⟩ := bind_ok h; have h2 := (Prod.mk.inj (Prod.mk.inj (Res.ok.inj h)).2).2; subst h2; exact ⟨_, _, _, rfl⟩)

theorem busA_K {e : Env} {w : Ros} {s s' : S} {a : Nat} (h : busA e w s = .ok (a, s')) :
    ∃ m c gr ge, s' = { s with r := { s.r with C := c, MC := m }, c := { s.c with GR := gr, GE := ge } } := by
  unfold busA at h
  obtain ⟨⟨x, chk, s1⟩, h1, h⟩ := bind_ok h
  obtain ⟨c, gr, ge, rfl⟩ := srcA_K (x := (x, chk)) h1
  simp only [badParity_spec, ok_bind] at h
  split at h <;> cases h
  · exact ⟨_, _, _, _, rfl⟩
  · exact ⟨s.r.MC, _, _, _, rfl⟩

theorem decLatch_K (w : Ros) (s : S) : ∃ x y, decLatch w s = { s with r := { s.r with ascii := x, wait := y } } := by
  unfold decLatch
  split
  · simp only
    split <;> exact ⟨_, _, rfl⟩
  · exact ⟨s.r.ascii, s.r.wait, rfl⟩

theorem carrySave_K (w : Ros) (k : Nat) (s : S) : ∃ x y, carrySave w k s = { s with r := { s.r with S := x, MC := y } } := by
  unfold carrySave
  simp only
  (repeat' split) <;> exact ⟨_, _, rfl⟩

theorem csFunc_K (e : Env) (w : Ros) (o : Nat) (s : S) : ∃ x y z v c, csFunc e w o s = { s with r := { s.r with S := x, mask := y, XX := z, O := v }, c := c } := by
  unfold csFunc
  simp only
  split
  any_goals exact ⟨_, _, _, _, _, rfl⟩
  all_goals (repeat' split) <;> exact ⟨_, _, _, _, _, rfl⟩

theorem finish_K {w : Ros} {o k : Nat} {s s' : S} (h : finish w o k s = .ok s') :
    ∃ m t, s' = { s with r := { s.r with MC := m }, q := { s.q with stat := t } } := by
  unfold finish at h
  obtain ⟨b, -, h⟩ := bind_ok h
  cases h
  cases b
  · exact ⟨s.r.MC, _, rfl⟩
  · exact ⟨_, _, rfl⟩

theorem wrapU_K (w : Ros) (tc : Bool) (k : Nat) (s : S) : ∃ l, wrapU w tc k s = { s with l := l } := by
  unfold wrapU
  simp only
  (repeat' split) <;> exact ⟨_, rfl⟩

theorem wrapI_K (w : Ros) (tc : Bool) (k : Nat) (s : S) : ∃ l, wrapI w tc k s = { s with l := l } := by
  unfold wrapI
  simp only
  (repeat' split) <;> exact ⟨_, rfl⟩

/-- Only the destination named by CD is loaded. -/
theorem dest_K {w : Ros} {tc : Bool} {o k : Nat} {s s' : S} (h : dest w tc o k s = .ok s') :
    K s' = [if w.CD = 8 then o else s.r.D, if w.CD = 9 then o else s.r.L, if w.CD = 10 then o else s.r.G, if w.CD = 11 then o else s.r.T,
      if w.CD = 12 then o else s.r.V, if w.CD = 13 then o else s.r.U, if w.CD = 14 then o else s.r.J, if w.CD = 15 then o else s.r.I,
      if w.CD = 5 then o else s.r.H] ∧ s'.m = s.m ∧ s'.a = s.a := by
  unfold dest at h
  split at h
  case h_7 hc =>
    rw [hc]
    split at h
    · cases h; exact ⟨rfl, rfl, rfl⟩
    · simp only [badParity_spec, ok_bind] at h
      cases h
      exact ⟨rfl, rfl, rfl⟩
  case h_5 hc =>
    rw [hc]
    simp only at h
    have h2 := Res.ok.inj h
    rw [← h2]
    split
    · split <;> exact ⟨rfl, rfl, rfl⟩
    · exact ⟨rfl, rfl, rfl⟩
  case h_13 hc =>
    rw [hc]
    obtain ⟨l, hl⟩ := wrapU_K w tc k { s with r := { s.r with U := o } }
    rw [hl] at h
    cases h
    exact ⟨rfl, rfl, rfl⟩
  case h_15 hc =>
    rw [hc]
    obtain ⟨l, hl⟩ := wrapI_K w tc k { s with r := { s.r with I := o } }
    rw [hl] at h
    cases h
    exact ⟨rfl, rfl, rfl⟩
  case h_16 =>
    cases h
    have h1 : w.CD ≠ 8 := by assumption
    have h2 : w.CD ≠ 9 := by assumption
    have h3 : w.CD ≠ 10 := by assumption
    have h4 : w.CD ≠ 11 := by assumption
    have h5 : w.CD ≠ 12 := by assumption
    have h6 : w.CD ≠ 13 := by assumption
    have h7 : w.CD ≠ 14 := by assumption
    have h8 : w.CD ≠ 15 := by assumption
    have h9 : w.CD ≠ 5 := by assumption
    refine ⟨?_, rfl, rfl⟩
    simp only [K, if_neg h1, if_neg h2, if_neg h3, if_neg h4, if_neg h5, if_neg h6, if_neg h7, if_neg h8, if_neg h9]
  all_goals (rename_i hc; rw [hc]; cases h; exact ⟨rfl, rfl, rfl⟩)

/-- Registers after a cycle: the destination holds the result, the others are unchanged. -/
theorem cycle_K {e : Env} {w : Ros} {s s' : S} (p : Phases e w s s') :
    K s' = [if w.CD = 8 then p.o else s.r.D, if w.CD = 9 then p.o else s.r.L, if w.CD = 10 then p.o else s.r.G,
      if w.CD = 11 then p.o else s.r.T, if w.CD = 12 then p.o else s.r.V, if w.CD = 13 then p.o else s.r.U,
      if w.CD = 14 then p.o else s.r.J, if w.CD = 15 then p.o else s.r.I, if w.CD = 5 then p.o else s.r.H] := by
  have h1 := (memRead_K p.read).1
  have h2 := (memCtl_K p.ctl).1
  have h3 : K (ckFunc w (step e w p.s2)) = K p.s2 := (ckFunc_K w _).1
  obtain ⟨m3, e3⟩ := busB_K p.bB
  obtain ⟨m4, c4, gr, ge, e4⟩ := busA_K p.bA
  obtain ⟨x, y, e5⟩ := decLatch_K w p.s4
  have h6 := (dest_K p.hDest).1
  obtain ⟨x7, y7, e7⟩ := carrySave_K w p.k p.s5
  obtain ⟨x8, y8, z8, v8, c8, e8⟩ := csFunc_K e w p.o (carrySave w p.k p.s5)
  obtain ⟨m9, t9, e9⟩ := finish_K p.fin
  have hs5 : K s' = K p.s5 := (congrArg K e9).trans (by rw [e8, e7]; rfl)
  have hd : K (decLatch w p.s4) = K s := by
    rw [e5]
    have : K p.s4 = K s := by
      rw [e4]
      have : K p.s3 = K s := by
        rw [e3]
        exact h3.trans (h2.trans h1)
      exact this
    exact this
  rw [hs5, h6]
  unfold K at hd
  simp only [List.cons.injEq, and_true] at hd
  obtain ⟨d1, d2, d3, d4, d5, d6, d7, d8, d9⟩ := hd
  rw [d1, d2, d3, d4, d5, d6, d7, d8, d9]

end Verif.Cpu30
