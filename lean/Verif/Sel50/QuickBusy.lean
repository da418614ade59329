import Verif.Sel50.SelectProps

/-!
# A control unit which is busy (C155)

A control unit which cannot be selected answers select out with status in instead of operational in,
with address out still up, and its status on bus in.
-/

namespace Verif.Sel50

variable {i : Nat} {u k : B} {x : X} {j : Job}

/-- The control unit is busy and shows the status `st`. -/
def Mv.Busy (m : Mv) (st : B) : Prop :=
  Waiting m.f ∧ m.n.t.adr = true ∧ m.n.t.staIn = true ∧ m.n.t.sel = false ∧ m.n.t.srvIn = false ∧ m.n.data = st

theorem busy_turn (h : j.Begin i u k x) {a b c : Mv} {st : B} (ha : a.Quiet) (hb : b.Quiet) (hc : c.Busy st) :
    ∃ z : X, j.Is i (c.f z.g) ∧ z.c.tags.cmd = false ∧ z = turn i (turn i x a) b ∧
      turn i z c = fin i c.n (if inst i (c.f z.g) then
        { c := { z.c with tags := { dropSel z.c.tags with adr := false, sup := false },
                          chpos := 0, chclk := 0, polling := true }, g := release 2 (c.f z.g) }
      else
        { c := { z.c with tags := { dropSel z.c.tags with adr := false, sup := false },
                          chpos := 0, chclk := 0, chreq := 0x10, ifStop := true, iostat := 0x08 }, g := c.f z.g }) := by
  have r1 := clk1 (clk0 h ha).1 hb
  generalize turn i (turn i x a) b = z at r1
  obtain ⟨hf, h1, h2, h3, hs, -⟩ := hc
  have is : j.Is i (c.f z.g) := r1.is.still hf
  obtain ⟨-, -, h4, -⟩ := obs_eq r1.lines
  refine ⟨z, is, h4, rfl, ?_⟩
  rw [turn_sel r1.pos hs]
  congr 1
  unfold posSel
  rw [if_pos r1.pos, r1.clk]
  show sel2 _ _ _ = _
  unfold sel2
  rw [if_neg (by rw [h3]; simp), if_pos (by rw [h1, h2]; rfl)]

/-- **C155** is violated: to start I/O and test I/O a busy control unit is reported as a busy channel,
condition code 2, whatever its status. -/
theorem C155_violated_code (h : j.Begin i u k x) (hj : j ≠ .chain) {a b c : Mv} {st : B} (ha : a.Quiet) (hb : b.Quiet)
    (hc : c.Busy st) :
    (after i x [a, b, c]).g.cc = 2 ∧ (after i x [a, b, c]).g.instLatch = false ∧ (after i x [a, b, c]).c.chreq = x.c.chreq ∧
      (after i x [a, b, c]).c.cReg = (after i x [a, b]).c.cReg := by
  obtain ⟨z, is, -, ez, e⟩ := busy_turn h ha hb hc
  have hz : z.c.chreq = 0 := by rw [ez]; exact (clk1 (clk0 h ha).1 hb).req
  show (turn i (turn i (turn i x a) b) c).g.cc = 2 ∧ (turn i (turn i (turn i x a) b) c).g.instLatch = false ∧
    (turn i (turn i (turn i x a) b) c).c.chreq = x.c.chreq ∧
    (turn i (turn i (turn i x a) b) c).c.cReg = (turn i (turn i x a) b).c.cReg
  rw [← ez, e, if_pos (show inst i (c.f z.g) = true by rw [is.inst]; simpa using hj)]
  obtain ⟨b1, b2, b3, b4, b5, -⟩ := fin_keeps (i := i) (n := c.n)
    (y := { c := { z.c with tags := { dropSel z.c.tags with adr := false, sup := false },
                            chpos := 0, chclk := 0, polling := true }, g := release 2 (c.f z.g) })
  exact ⟨by rw [b1]; rfl, by rw [b1]; rfl, by rw [b3, h.req]; exact hz, b5⟩

/-- **C155** is violated: nothing of the status is kept. Whatever the control unit says, channel and
processor are in the same state after it. -/
theorem C155_violated_status (h : j.Begin i u k x) {a b c c' : Mv} {st st' : B} (ha : a.Quiet) (hb : b.Quiet) (hc : c.Busy st)
    (hc' : c'.Busy st') (ht : c.n.t = c'.n.t) (hf : c.f = c'.f) : after i x [a, b, c] = after i x [a, b, c'] := by
  obtain ⟨z, -, -, ez, e⟩ := busy_turn h ha hb hc
  obtain ⟨z', -, -, ez', e'⟩ := busy_turn h ha hb hc'
  show turn i (turn i (turn i x a) b) c = turn i (turn i (turn i x a) b) c'
  rw [← ez, e, ez, ← ez', e', hf]
  unfold fin dropCmd dropSrv
  rw [ht]

/-- Part of **C155**: the selection ends in that cycle, with the lines of the channel down; a command of a
chain ends with a request for the end routine. -/
theorem C155_ends_partial (h : j.Begin i u k x) {a b c : Mv} {st : B} (ha : a.Quiet) (hb : b.Quiet) (hc : c.Busy st) :
    (after i x [a, b, c]).c.chpos = 0 ∧ (after i x [a, b, c]).c.tags.sel = false ∧ (after i x [a, b, c]).c.tags.adr = false ∧
      (after i x [a, b, c]).c.tags.cmd = false ∧ (j = .chain → (after i x [a, b, c]).c.chreq = 0x10 ∧ (after i x [a, b, c]).c.ifStop = true) := by
  obtain ⟨z, is, h4, ez, e⟩ := busy_turn h ha hb hc
  show (turn i (turn i (turn i x a) b) c).c.chpos = 0 ∧ (turn i (turn i (turn i x a) b) c).c.tags.sel = false ∧
    (turn i (turn i (turn i x a) b) c).c.tags.adr = false ∧ (turn i (turn i (turn i x a) b) c).c.tags.cmd = false ∧
    (j = .chain → (turn i (turn i (turn i x a) b) c).c.chreq = 0x10 ∧ (turn i (turn i (turn i x a) b) c).c.ifStop = true)
  rw [← ez, e]
  generalize hy : (if inst i (c.f z.g) then _ else _ : X) = y
  obtain ⟨b1, b2, b3, b4, b5, b6, b7, b8, b9, b11, -, b10⟩ := fin_keeps (i := i) (n := c.n) (y := y)
  rw [b2, b7, b8, b3, b4]
  by_cases hj : j = .chain
  · rw [if_neg (show ¬ inst i (c.f z.g) = true by rw [is.inst]; simpa using hj)] at hy
    subst hy
    exact ⟨rfl, rfl, rfl, b10 h4, fun _ => ⟨rfl, rfl⟩⟩
  · rw [if_pos (show inst i (c.f z.g) = true by rw [is.inst]; simpa using hj)] at hy
    subst hy
    exact ⟨rfl, rfl, rfl, b10 h4, fun hx => absurd hx hj⟩

/-- Start I/O for unit 90, and the control unit answers busy with status modifier, as the 2841 does. -/
theorem C155_example :
    (mvT { adr := true, staIn := true } 0x50).Busy 0x50 ∧
    (after 1 (startSel 1 0x90 2) [mvT {} 0, mvT {} 0, mvT { adr := true, staIn := true } 0x50]).g.cc = 2 :=
  ⟨⟨waiting_id, rfl, rfl, rfl, rfl, rfl⟩,
   (C155_violated_code (startSel_begin 1 0x90 2) (by decide) ⟨waiting_id, rfl, rfl, rfl⟩
     ⟨waiting_id, rfl, rfl, rfl⟩ ⟨waiting_id, rfl, rfl, rfl, rfl, rfl⟩).1⟩

end Verif.Sel50
