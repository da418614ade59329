import Verif.Sel50.Count

/-! # The three channels together -/

namespace Verif.Sel50

/-- Nothing has been written for another channel, the channel is not fetching a word to write, and the
signal of the last cycle is `l`. -/
def Calm (l : Bool) (x : X) : Prop := x.spill = none ∧ x.c.chpos ≠ 0x08 ∧ x.g.last = l

theorem calm_ls {l : Bool} {x : X} (h : Calm l x) : Calm l (posLs x) := by
  obtain ⟨a, b, c⟩ := h
  unfold posLs; repeat' split
  all_goals first | exact ⟨a, b, c⟩ | exact ⟨a, (by decide : (0#16) ≠ 0x08), c⟩

theorem calm_ua {l : Bool} {x : X} (h : Calm l x) : Calm l (posUa x) := by
  obtain ⟨a, b, c⟩ := h
  unfold posUa; repeat' split
  all_goals first | exact ⟨a, b, c⟩ | exact ⟨a, (by decide : (0#16) ≠ 0x08), c⟩

theorem ccw1b_pos (i : Nat) (g : Glob) (c : Chan) : (ccw1b i g c).chpos = c.chpos := by
  unfold ccw1b; repeat' split
  all_goals rfl

theorem calm_ccw1 {i : Nat} {l : Bool} {x : X} (h : Calm l x) : Calm l (posCcw1 i x) := by
  obtain ⟨a, b, c⟩ := h
  unfold posCcw1
  split
  · have key : ∀ y : X, Calm l y → Calm l (if y.g.last = true then
      { y with c := { y.c with routine := 0x30, chpos := 0x40, chclk := 0 },
               g := { y.g with breakIn := y.g.breakIn ||| mask i } } else y) := by
      rintro y ⟨a, b, c⟩
      split
      · exact ⟨a, (by decide : (0x40#16) ≠ 0x08), c⟩
      · exact ⟨a, b, c⟩
    apply key
    split
    · split
      · exact ⟨a, b, c⟩
      · exact ⟨a, by show (ccw1b i x.g x.c).chpos ≠ _; rw [ccw1b_pos]; exact b, c⟩
      · exact ⟨a, (by decide : (0#16) ≠ 0x08), c⟩
      · exact ⟨a, b, c⟩
    · exact ⟨a, b, c⟩
  · exact ⟨a, b, c⟩

theorem calm_ccw2 {i : Nat} {l : Bool} {x : X} (h : Calm l x) : Calm l (posCcw2 i x) := by
  obtain ⟨a, b, c⟩ := h
  unfold posCcw2; repeat' split
  all_goals first | exact ⟨a, b, c⟩ | exact ⟨a, (by decide : (0#16) ≠ 0x08), c⟩

theorem calm_sel2 {i : Nat} {n : In} {l : Bool} {x : X} (h : Calm l x) : Calm l (sel2 i n x) := by
  obtain ⟨a, b, c⟩ := h
  unfold sel2; repeat' split
  all_goals first
    | exact ⟨a, (by decide : (0#16) ≠ 0x08), c⟩
    | refine ⟨a, ?_, c⟩
      show (sel2c n x.c).chpos ≠ _
      unfold sel2c; dsimp only; split <;> exact b

theorem calm_sel3 {i : Nat} {n : In} {l : Bool} {x : X} (h : Calm l x) : Calm l (sel3 i n x) := by
  obtain ⟨a, b, c⟩ := h
  unfold sel3; repeat' split
  all_goals first | exact ⟨a, (by decide : (0#16) ≠ 0x08), c⟩ | exact ⟨a, b, c⟩

theorem calm_sel5 {i : Nat} {l : Bool} {x : X} (h : Calm l x) : Calm l (sel5c i x) := by
  obtain ⟨a, b, c⟩ := h
  have e : ∀ v, (if inst i x.g = true then release v x.g else x.g).last = l := by
    intro v; split <;> exact c
  unfold sel5c; repeat' split
  all_goals first | exact ⟨a, b, c⟩ | exact ⟨a, b, e _⟩

theorem calm_sel {i : Nat} {n : In} {l : Bool} {x : X} (h : Calm l x) : Calm l (posSel i n x) := by
  obtain ⟨a, b, c⟩ := h
  unfold posSel; split
  · split
    · exact ⟨a, b, c⟩
    · exact ⟨a, b, c⟩
    · exact calm_sel2 ⟨a, b, c⟩
    · exact calm_sel3 ⟨a, b, c⟩
    · exact ⟨a, b, c⟩
    · split
      · exact ⟨a, b, c⟩
      · exact calm_sel5 ⟨a, (by decide : (0#16) ≠ 0x08), c⟩
    · split
      · exact ⟨a, b, c⟩
      · exact ⟨a, (by decide : (0#16) ≠ 0x08), c⟩
    · exact ⟨a, b, c⟩
  · exact ⟨a, b, c⟩

theorem calm_rst {l : Bool} {x : X} (h : Calm l x) : Calm l (posRst x) := by
  obtain ⟨a, b, c⟩ := h
  unfold posRst; repeat' split
  all_goals first | exact ⟨a, b, c⟩ | exact ⟨a, (by decide : (0#16) ≠ 0x08), c⟩

theorem calm_wf {i : Nat} {l : Bool} {x : X} (h : Calm l x) : Calm l (posWf i x) := by
  unfold posWf; rw [if_neg h.2.1]; exact h

theorem calm_end {i : Nat} {n : In} {l : Bool} {x : X} (h : Calm l x) : Calm l (posEnd i n x) := by
  obtain ⟨a, b, c⟩ := h
  unfold posEnd; split
  · have key : ∀ y : X, Calm l y → Calm l (endLast y) := by
      rintro y ⟨a, b, c⟩
      unfold endLast; split
      · exact ⟨a, (by decide : (0#16) ≠ 0x08), c⟩
      · exact ⟨a, b, c⟩
    apply key
    split
    · split
      · exact ⟨a, b, c⟩
      · unfold endb; dsimp only; repeat' split
        all_goals exact ⟨a, b, c⟩
      · exact ⟨a, b, c⟩
    · exact ⟨a, b, c⟩
  · exact ⟨a, b, c⟩

theorem calm_cmp {l : Bool} {x : X} (h : Calm l x) : Calm l (posCmp x) := by
  obtain ⟨a, b, c⟩ := h
  unfold posCmp; dsimp only; repeat' split
  all_goals first | exact ⟨a, b, c⟩ | exact ⟨a, (by decide : (0#16) ≠ 0x08), c⟩

theorem calm_irq {i : Nat} {n : In} {l : Bool} {x : X} (h : Calm l x) : Calm l (posIrq i n x) := by
  obtain ⟨a, b, c⟩ := h
  unfold posIrq; dsimp only; repeat' split
  all_goals first | exact ⟨a, b, c⟩ | exact ⟨a, (by decide : (0#16) ≠ 0x08), c⟩

theorem calm_positions {i : Nat} {n : In} {l : Bool} {x : X} (h : Calm l x) :
    Calm l (positions i n x) := by
  unfold positions
  exact calm_irq (calm_cmp (calm_end (calm_wf (calm_rst (calm_sel (calm_ccw2 (calm_ccw1 (calm_ua
    (calm_ls h)))))))))

/-- Nothing written for another channel. -/
def Still (l : Bool) (x : X) : Prop := x.spill = none ∧ x.g.last = l

theorem still_poll {i : Nat} {n : In} {l : Bool} {x : X} (h : Still l x) : Still l (poll i n x) := by
  have z1 : ∀ y : X, Still l y → Still l (if n.t.hld && !n.t.oprIn then
      { y with c := { y.c with tags := dropSel y.c.tags, c1 := false } } else y) := by
    intro y h; split <;> exact h
  have z2 : ∀ y : X, Still l y → Still l (if n.t.staIn && n.t.oprIn then
      { y with g := { y.g with bchi := y.g.bchi ||| bit1 i },
               c := { y.c with tags := { y.c.tags with srv := true, cmd := false },
                               bReg := y.c.cReg, cReg := putStatus y.c.cReg n.data, iostat := 0x80,
                               polling := false, c1 := false, c2 := false, c3 := false } } else y) := by
    intro y h; split <;> exact h
  have z3 : ∀ y : X, Still l y → Still l (if n.t.adrIn && n.t.oprIn then
      { y with c := { y.c with cReg := putStatus y.c.cReg n.data,
                               tags := { y.c.tags with cmd := true } } } else y) := by
    intro y h; split <;> exact h
  unfold poll
  exact z1 _ (z2 _ (z3 _ h))

theorem still_auto {i : Nat} {n : In} {l : Bool} {x : X} (h : Still l x) : Still l (auto i n x) := by
  have z : Still l (lsAsk i { x with c := bToC n (cToB n x.c) }) := by
    generalize bToC n (cToB n x.c) = w
    unfold lsAsk; dsimp only; repeat' split
    all_goals exact h
  exact z

theorem calm_work {i : Nat} {n : In} {l : Bool} {x : X} (h : Calm l x) : Still l (work i n x) := by
  have key : ∀ y : X, Still l y →
      Still l { dropSrv i n y with c := serve n (dropCmd n (dropSrv i n y).c) } := by
    intro y h; unfold dropSrv; split <;> exact h
  unfold work
  refine key _ ?_
  split
  · have := calm_positions (i := i) (n := n) h
    exact ⟨this.1, this.2.2⟩
  · split
    · exact still_poll ⟨h.1, h.2.2⟩
    · exact still_auto ⟨h.1, h.2.2⟩

theorem accept_g (i : Nat) (x : X) : (accept i x).spill = x.spill ∧ (accept i x).g.last = x.g.last := by
  unfold accept; dsimp only; repeat' split
  all_goals exact ⟨rfl, rfl⟩

theorem sys_accept (s : Sys) (i k : Nat) :
    (s.accept i).c k = (if k = i then began i s.g (s.c i) else s.c k) ∧
      (s.accept i).g.last = s.g.last := by
  have h := accept_g i { c := s.c i, g := s.g }
  refine ⟨?_, h.2⟩
  show (if k = i then _ else _) = _
  rw [h.1]
  rfl

theorem sys_work (s : Sys) (n : Nat → In) (i k : Nat) (h : (s.c i).chpos ≠ 0x08) :
    (s.work n i).c k = (if k = i then (work i (n i) { c := s.c i, g := s.g }).c else s.c k) ∧
      (s.work n i).g.last = s.g.last := by
  have e := calm_work (i := i) (n := n i) (l := s.g.last) (x := { c := s.c i, g := s.g })
    ⟨rfl, h, rfl⟩
  refine ⟨?_, e.2⟩
  show (if k = i then _ else _) = _
  rw [e.1]

/-- **C143** While no channel fetches a word to write, what a cycle of the machine does to a channel
depends on the other channels only through the signals they share: it is a cycle of that channel
alone, with its own interface, and the same signal of the last cycle. -/
theorem C143_alone_partial (s : Sys) (n : Nat → In)
    (h : ∀ j, j < 3 → (s.c j).chreq ≠ 0x80 ∨ (s.c j).op ≠ 1)
    (h8 : ∀ j, j < 3 → (s.c j).chpos ≠ 0x08) (k : Nat) (hk : k < 3) :
    ∃ ga gw : Glob, (s.cycle n).c k = cycled k (n k) ga gw (s.c k) ∧
      ga.last = s.g.last ∧ gw.last = s.g.last ∧ (s.cycle n).g.last = s.g.last := by
  have hb : ∀ j g, j < 3 → (began j g (s.c j)).chpos ≠ 0x08 := by
    intro j g hj
    unfold began accept
    split
    · exact h8 j hj
    · split
      · exact h8 j hj
      · dsimp only
        split
        · split
          · rename_i hreq hop
            rcases h j hj with e | e
            · exact absurd hreq e
            · exact absurd hop e
          · exact (by decide : (0x10#16) ≠ 0x08)
        all_goals first
          | exact (by decide : (0x01#16) ≠ 0x08)
          | exact (by decide : (0x100#16) ≠ 0x08)
          | exact (by decide : (0x04#16) ≠ 0x08)
          | exact (by decide : (0x02#16) ≠ 0x08)
          | exact (by decide : (0x20#16) ≠ 0x08)
          | exact h8 j hj
          | (split <;> exact (by decide : (0x80#16) ≠ 0x08))
  have a0 := sys_accept s 0
  have a1 := sys_accept (s.accept 0) 1
  have a2 := sys_accept ((s.accept 0).accept 1) 2
  have c0 : (((s.accept 0).accept 1).accept 2).c 0 = began 0 s.g (s.c 0) := by
    rw [(a2 0).1, if_neg (by decide), (a1 0).1, if_neg (by decide), (a0 0).1, if_pos rfl]
  have c1 : (((s.accept 0).accept 1).accept 2).c 1 = began 1 (s.accept 0).g (s.c 1) := by
    rw [(a2 1).1, if_neg (by decide), (a1 1).1, if_pos rfl, (a0 1).1, if_neg (by decide)]
  have c2 : (((s.accept 0).accept 1).accept 2).c 2 = began 2 ((s.accept 0).accept 1).g (s.c 2) := by
    rw [(a2 2).1, if_pos rfl, (a1 2).1, if_neg (by decide), (a0 2).1, if_neg (by decide)]
  have l1 : (s.accept 0).g.last = s.g.last := (a0 0).2
  have l2 : ((s.accept 0).accept 1).g.last = s.g.last := (a1 0).2.trans l1
  have l3 : (((s.accept 0).accept 1).accept 2).g.last = s.g.last := (a2 0).2.trans l2
  unfold Sys.cycle
  generalize ((s.accept 0).accept 1).accept 2 = u at c0 c1 c2 l3 ⊢
  have w0 := fun k => sys_work u n 0 k (by rw [c0]; exact hb 0 _ (by omega))
  have u1 : (u.work n 0).c 1 = u.c 1 := by rw [(w0 1).1, if_neg (by decide)]
  have u2 : (u.work n 0).c 2 = u.c 2 := by rw [(w0 2).1, if_neg (by decide)]
  have w1 := fun k => sys_work (u.work n 0) n 1 k (by rw [u1, c1]; exact hb 1 _ (by omega))
  have v2 : ((u.work n 0).work n 1).c 2 = u.c 2 := by rw [(w1 2).1, if_neg (by decide), u2]
  have w2 := fun k => sys_work ((u.work n 0).work n 1) n 2 k (by
    rw [v2, c2]; exact hb 2 _ (by omega))
  have m1 : (u.work n 0).g.last = s.g.last := (w0 0).2.trans l3
  have m2 : ((u.work n 0).work n 1).g.last = s.g.last := (w1 0).2.trans m1
  have m3 : (((u.work n 0).work n 1).work n 2).g.last = s.g.last := (w2 0).2.trans m2
  have hk' : k = 0 ∨ k = 1 ∨ k = 2 := by omega
  rcases hk' with rfl | rfl | rfl
  · refine ⟨s.g, u.g, ?_, rfl, l3, m3⟩
    rw [(w2 0).1, if_neg (by decide), (w1 0).1, if_neg (by decide), (w0 0).1, if_pos rfl, c0]
    rfl
  · refine ⟨(s.accept 0).g, (u.work n 0).g, ?_, l1, m1, m3⟩
    rw [(w2 1).1, if_neg (by decide), (w1 1).1, if_pos rfl, u1, c1]
    rfl
  · refine ⟨((s.accept 0).accept 1).g, ((u.work n 0).work n 1).g, ?_, l2, m2, m3⟩
    rw [(w2 2).1, if_pos rfl, v2, c2]
    rfl

end Verif.Sel50
