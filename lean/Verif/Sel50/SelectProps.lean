import Verif.Sel50.Select

/-! # Initial selection: the theorems (C145, C146, C147) -/

namespace Verif.Sel50

variable {j : Job} {i : Nat} {u k : B} {x : X} {m : Mv} {fl : BitVec 16} {e : Obs}

/-- **C145**, the lines: for every unit which answers select out at once, takes any time for its
address and status, for every activity of the processor and of the other channels meanwhile, the
lines show what they are to show, cycle by cycle, with odd parity. Missing: see
`C145_violated_late`, `C145_violated_tio`. -/
theorem C145_lines_partial {st : B} (p : Play st) (hp : p.Ok) (h : j.Begin i u k x) :
    seen i x p.up = (p.lines u k).map some := (p.run hp h).1

/-- The byte at the left of a word. -/
theorem top (w : W) (b : B) :
    w &&& (b.setWidth 32 <<< 24) = 0 ↔ (w >>> 24).setWidth 8 &&& b = 0 := by
  constructor
  · intro h
    have : (w >>> 24).setWidth 8 &&& b = ((w &&& (b.setWidth 32 <<< 24)) >>> 24).setWidth 8 := by
      apply BitVec.eq_of_getLsbD_eq
      intro t ht
      simp [BitVec.getLsbD_setWidth, BitVec.getLsbD_ushiftRight, BitVec.getLsbD_and,
        BitVec.getLsbD_shiftLeft, ht, show 24 + t < 32 by omega, show t < 32 by omega, show ¬ 24 + t < 24 by omega]
    rw [this, h]; decide
  · intro h
    have : w &&& (b.setWidth 32 <<< 24) = ((w >>> 24).setWidth 8 &&& b).setWidth 32 <<< 24 := by
      apply BitVec.eq_of_getLsbD_eq
      intro t ht
      simp only [BitVec.getLsbD_setWidth, BitVec.getLsbD_ushiftRight, BitVec.getLsbD_and,
        BitVec.getLsbD_shiftLeft]
      by_cases h24 : t < 24
      · simp [h24]
      · simp [h24, show 24 + (t - 24) = t by omega, show t - 24 < 8 by omega,
          show t - 24 < 32 by omega, ht]
    rw [this, h]; decide

theorem top_ne {w : W} {st b : B} {c : W} (h : (w >>> 24).setWidth 8 = st)
    (hc : c = b.setWidth 32 <<< 24) : (w &&& c != 0) = (st &&& b != 0) := by
  subst hc
  have := top w b
  rw [h] at this
  by_cases hz : st &&& b = 0
  · rw [this.mpr hz, hz]; rfl
  · rw [bne_iff_ne.mpr hz, bne_iff_ne.mpr (fun e => hz (this.mp e))]

/-- What `fin` leaves alone. -/
theorem fin_keeps {n : In} {y : X} :
    (fin i n y).g = y.g ∧ (fin i n y).c.chpos = y.c.chpos ∧ (fin i n y).c.chreq = y.c.chreq ∧
    (fin i n y).c.ifStop = y.c.ifStop ∧ (fin i n y).c.cReg = y.c.cReg ∧
    (fin i n y).c.flags = y.c.flags ∧ (fin i n y).c.tags.sel = y.c.tags.sel ∧
    (fin i n y).c.tags.adr = y.c.tags.adr ∧ (fin i n y).c.chclk = y.c.chclk ∧
    (fin i n y).c.c2 = y.c.c2 ∧
    (y.c.tags.srv = false → (fin i n y).c.tags.srv = false) ∧
    (y.c.tags.cmd = false → (fin i n y).c.tags.cmd = false) := by
  unfold fin dropCmd dropSrv
  by_cases hd : (n.t.srv && !n.t.srvIn && !n.t.staIn) = true
  · rw [if_pos hd]
    split <;> exact ⟨rfl, rfl, rfl, rfl, rfl, rfl, rfl, rfl, rfl, rfl,
      by first | exact id | exact fun _ => rfl, by first | exact id | exact fun _ => rfl⟩
  · rw [if_neg hd]
    split <;> exact ⟨rfl, rfl, rfl, rfl, rfl, rfl, rfl, rfl, rfl, rfl,
      by first | exact id | exact fun _ => rfl, by first | exact id | exact fun _ => rfl⟩

/-- How the initial status `st` is to be taken. `chain`: command chaining is on. -/
structure Ends (j : Job) (i : Nat) (st : B) (chain : Prop) (y : X) : Prop where
  /-- the selection is over and the lines are down; the status is kept for the channel status word -/
  over : y.c.chpos = 0 ∧ y.c.tags.srv = false ∧ y.c.tags.cmd = false ∧ y.c.tags.adr = false ∧
    (y.c.cReg >>> 24).setWidth 8 = st
  /-- test I/O and nothing to tell: condition code 0 -/
  tio0 : j = .tio → st = 0 → y.g.cc = 0 ∧ y.g.instLatch = false ∧ y.c.tags.sel = false ∧
    y.c.chreq = 0
  /-- test I/O and something to tell: condition code 1, the status is to be stored -/
  tio1 : j = .tio → st ≠ 0 → y.g.cc = 1 ∧ y.c.tags.sel = false ∧ y.c.chreq = 0x10
  /-- start I/O, and the unit is busy or has something to complain: condition code 1, the status is to
  be stored, no data -/
  sio1 : j = .sio → st &&& 0xb3 ≠ 0 → y.g.cc = 1 ∧ y.c.tags.sel = false ∧ y.c.chreq = 0x10 ∧
    y.c.ifStop = true
  /-- the same from a chain: an interruption -/
  chain1 : j = .chain → st &&& 0xb3 ≠ 0 → y.g.bchi &&& bit1 i = bit1 i ∧ y.c.tags.sel = false ∧
    y.c.ifStop = true
  /-- device end at once and a chain: the next CCW is asked for, condition code 0 -/
  next : j ≠ .tio → st &&& 0xb3 = 0 → st &&& 4 ≠ 0 → chain → y.c.tags.sel = false ∧
    y.c.chreq = 0x08 ∧ (j = .sio → y.g.cc = 0 ∧ y.g.instLatch = false)
  /-- device end or channel end at once and no chain: the status is to be stored -/
  done : j ≠ .tio → st &&& 0xb3 = 0 → (st &&& 4 ≠ 0 ∨ st &&& 8 ≠ 0) → ¬ chain →
    y.c.tags.sel = false ∧ y.c.chreq = 0x10
  /-- otherwise data follow: the unit stays selected, condition code 0 -/
  data : j ≠ .tio → st &&& 0xb3 = 0 → st &&& 4 = 0 → (st &&& 8 = 0 ∨ chain) →
    y.c.tags.sel = true ∧ y.c.chreq = 0 ∧ y.c.ifStop = false ∧
    (j = .sio → y.g.cc = 0 ∧ y.g.instLatch = false)

theorem or_bit1 (b : B) (i : Nat) : (b ||| bit1 i) &&& bit1 i = bit1 i := by
  apply BitVec.eq_of_getLsbD_eq
  intro t ht
  simp only [BitVec.getLsbD_and, BitVec.getLsbD_or]
  cases b.getLsbD t <;> cases (bit1 i).getLsbD t <;> rfl

theorem Ends.fin {st : B} {ch : Prop} {n : In} {y : X} (h : Ends j i st ch y) :
    Ends j i st ch (Sel50.fin i n y) := by
  obtain ⟨b1, b2, b3, b4, b5, b6, b7, b8, -, -, b9, b10⟩ := fin_keeps (i := i) (n := n) (y := y)
  obtain ⟨o, h1, h2, h3, h4, h5, h6, h7⟩ := h
  refine ⟨⟨b2.trans o.1, b9 o.2.1, b10 o.2.2.1, b8.trans o.2.2.2.1, by rw [b5]; exact o.2.2.2.2⟩,
    ?_, ?_, ?_, ?_, ?_, ?_, ?_⟩ <;> simp only [b1, b3, b4, b7] <;> assumption

/-- What is done with the status. -/
theorem sel5c_ends {st : B} {z : X} (is : j.Is i z.g) (hst : (z.c.cReg >>> 24).setWidth 8 = st)
    (hpos : z.c.chpos = 0) (hsrv : z.c.tags.srv = false) (hcmd : z.c.tags.cmd = false)
    (hadr : z.c.tags.adr = false) (hsel : z.c.tags.sel = true) (hreq : z.c.chreq = 0)
    (hgo : z.c.ifStop = false) : Ends j i st (z.c.flags &&& 0x4000 ≠ 0) (sel5c i z) := by
  have t1 := top_ne (c := 0xff000000) (b := 0xff) hst (by decide)
  have t2 := top_ne (c := 0xb3000000) (b := 0xb3) hst (by decide)
  have t3 := top_ne (c := 0x04000000) (b := 0x04) hst (by decide)
  have t4 := top_ne (c := 0x08000000) (b := 0x08) hst (by decide)
  have tf : st &&& 0xff = st := by
    apply BitVec.eq_of_getLsbD_eq
    intro t ht
    have : ∀ t : Fin 8, (0xff#8).getLsbD t.val = true := by decide
    simp [BitVec.getLsbD_and, this ⟨t, ht⟩]
  rw [tf] at t1
  have tz : st = 0 → st &&& 0xb3 = 0 := by rintro rfl; decide
  have key := or_bit1 z.g.bchi i
  have ci := is.inst
  have ct := is.tio
  unfold sel5c
  by_cases hj : j = .tio
  · subst hj
    rw [if_pos (show (inst i z.g && z.g.chctl == 4) = true by rw [ct]; decide)]
    by_cases e0 : st = 0
    · rw [if_neg (show ¬ (z.c.cReg &&& 0xff000000 != 0) = true by rw [t1, e0]; decide)]
      exact ⟨⟨hpos, hsrv, hcmd, hadr, hst⟩, fun _ _ => ⟨rfl, rfl, rfl, hreq⟩, fun _ h => absurd e0 h,
        (fun h => nomatch h), (fun h => nomatch h), fun h => absurd rfl h, fun h => absurd rfl h,
        fun h => absurd rfl h⟩
    · rw [if_pos (show (z.c.cReg &&& 0xff000000 != 0) = true by rw [t1]; exact bne_iff_ne.mpr e0)]
      exact ⟨⟨hpos, hsrv, hcmd, hadr, hst⟩, fun _ h => absurd h e0, fun _ _ => ⟨rfl, rfl, rfl⟩,
        (fun h => nomatch h), (fun h => nomatch h), fun h => absurd rfl h, fun h => absurd rfl h,
        fun h => absurd rfl h⟩
  rw [if_neg (show ¬ (inst i z.g && z.g.chctl == 4) = true by rw [ct]; simpa using hj)]
  by_cases e1 : st &&& 0xb3 = 0
  rotate_left
  · rw [if_pos (show (z.c.cReg &&& 0xb3000000 != 0) = true by rw [t2]; exact bne_iff_ne.mpr e1)]
    by_cases hc : j = .chain
    · rw [if_neg (show ¬ inst i z.g = true by rw [ci]; simpa using hc)]
      exact ⟨⟨hpos, hsrv, hcmd, hadr, hst⟩, fun h => absurd h hj, fun h => absurd h hj,
        (fun h => nomatch (hc.symm.trans h)), fun _ _ => ⟨key, rfl, rfl⟩, fun _ h => absurd h e1,
        fun _ h => absurd h e1, fun _ h => absurd h e1⟩
    · rw [if_pos (show inst i z.g = true by rw [ci]; simpa using hc)]
      exact ⟨⟨hpos, hsrv, hcmd, hadr, hst⟩, fun h => absurd h hj, fun h => absurd h hj,
        fun _ _ => ⟨rfl, rfl, rfl, rfl⟩, fun h => absurd h hc, fun _ h => absurd h e1,
        fun _ h => absurd h e1, fun _ h => absurd h e1⟩
  rw [if_neg (show ¬ (z.c.cReg &&& 0xb3000000 != 0) = true by rw [t2, e1]; decide)]
  have rel : j = .sio → (if inst i z.g then release 0 z.g else z.g).cc = 0 ∧
      (if inst i z.g then release 0 z.g else z.g).instLatch = false := by
    intro h; rw [if_pos (show inst i z.g = true by rw [ci, h]; decide)]; exact ⟨rfl, rfl⟩
  by_cases e2 : st &&& 4 = 0
  · rw [if_neg (show ¬ (z.c.cReg &&& 0x04000000 != 0) = true by rw [t3, e2]; decide)]
    by_cases e3 : st &&& 8 ≠ 0 ∧ z.c.flags &&& 0x4000 = 0
    · rw [if_pos (show (z.c.cReg &&& 0x08000000 != 0) = true ∧ z.c.flags &&& 0x4000 = 0 from
        ⟨by rw [t4]; exact bne_iff_ne.mpr e3.1, e3.2⟩)]
      exact ⟨⟨hpos, hsrv, hcmd, hadr, hst⟩, fun h => absurd h hj, fun h => absurd h hj,
        fun _ h => absurd e1 h, fun _ h => absurd e1 h, fun _ _ h => absurd e2 h,
        fun _ _ _ _ => ⟨rfl, rfl⟩,
        fun _ _ _ h => h.elim (fun h => absurd h e3.1) (fun h => absurd e3.2 h)⟩
    · rw [if_neg (show ¬ ((z.c.cReg &&& 0x08000000 != 0) = true ∧ z.c.flags &&& 0x4000 = 0) from
        fun h => e3 ⟨by rw [t4] at h; exact bne_iff_ne.mp h.1, h.2⟩)]
      exact ⟨⟨hpos, hsrv, hcmd, hadr, hst⟩, fun h => absurd h hj, fun h => absurd h hj,
        fun _ h => absurd e1 h, fun _ h => absurd e1 h, fun _ _ h => absurd e2 h,
        fun _ _ h hn => absurd ⟨h.elim (fun h => absurd e2 h) id, Decidable.not_not.mp hn⟩ e3,
        fun _ _ _ _ => ⟨hsel, hreq, hgo, rel⟩⟩
  · rw [if_pos (show (z.c.cReg &&& 0x04000000 != 0) = true by rw [t3]; exact bne_iff_ne.mpr e2)]
    by_cases e4 : z.c.flags &&& 0x4000 = 0
    · rw [if_neg (show ¬ (z.c.flags &&& 0x4000 != 0) = true by rw [e4]; decide)]
      exact ⟨⟨hpos, hsrv, hcmd, hadr, hst⟩, fun h => absurd h hj, fun h => absurd h hj,
        fun _ h => absurd e1 h, fun _ h => absurd e1 h, fun _ _ _ h => absurd e4 h,
        fun _ _ _ _ => ⟨rfl, rfl⟩, fun _ _ h => absurd h e2⟩
    · rw [if_pos (show (z.c.flags &&& 0x4000 != 0) = true from bne_iff_ne.mpr e4)]
      exact ⟨⟨hpos, hsrv, hcmd, hadr, hst⟩, fun h => absurd h hj, fun h => absurd h hj,
        fun _ h => absurd e1 h, fun _ h => absurd e1 h, fun _ _ _ _ => ⟨rfl, rfl, rel⟩,
        fun _ _ _ h => absurd e4 h, fun _ _ h => absurd h e2⟩

/-- Status in falls. -/
theorem clk5_ends {st : B} (h : Mid j i k fl 5 { srv := true, bus := k } x)
    (hst : (x.c.cReg >>> 24).setWidth 8 = st) (hm : m.Quiet) :
    Ends j i st (fl &&& 0x4000 ≠ 0) (turn i x m) := by
  obtain ⟨hf, ha, ht, hs⟩ := hm
  have is : j.Is i (m.f x.g) := h.is.still hf
  obtain ⟨hp, h1, h2, h3, h4, h5⟩ := obs_eq h.lines
  have ep : posSel i m.n { c := x.c, g := m.f x.g } = sel5c i
      { c := { x.c with
             tags := { x.c.tags with srv := false }, cFull := false, bFull := false, lsFull := false,
             chpos := 0, chclk := 0 }, g := m.f x.g } := by
    unfold posSel; rw [if_pos h.pos, h.clk]
    show (if m.n.t.staIn = true then _ else _) = _
    rw [if_neg (by rw [ht]; decide)]
  rw [turn_sel h.pos hs, ep, ← h.flags]
  exact (sel5c_ends (z := { c := { x.c with
             tags := { x.c.tags with srv := false }, cFull := false, bFull := false, lsFull := false,
             chpos := 0, chclk := 0 }, g := m.f x.g }) is hst rfl rfl h2 h1 h4 h.req h.go).fin

/-- **C145**, the outcome: in every such selection the status of the unit decides the condition code
and what follows. -/
theorem C145_status_partial {st : B} (p : Play st) (hp : p.Ok) (h : j.Begin i u k x) :
    Ends j i st (x.c.flags &&& 0x4000 ≠ 0) (after i x (p.up ++ [p.fall])) := by
  rw [after_append]
  exact clk5_ends (p.run hp h).2.1 (p.run hp h).2.2 hp.fall

/-! ### Non-vacuity -/

def mvT (t : Bus.Tags) (d : B) : Mv := ⟨⟨t, d, oddPar d⟩, id⟩

theorem waiting_id : Waiting id := fun _ => ⟨rfl, rfl, rfl⟩

/-- A unit which returns the address `v` and the status `st`. -/
def plain (v st : B) : Play st :=
  { a := mvT {} 0, b := mvT {} 0, takes := mvT { oprIn := true } 0,
    w1 := [mvT { oprIn := true } 0], addr := [mvT { oprIn := true, adrIn := true } v,
      mvT { oprIn := true, adrIn := true } v],
    w2 := [mvT { oprIn := true } 0], s1 := mvT { oprIn := true, staIn := true } st,
    s2 := mvT { oprIn := true, staIn := true } st, stat := [],
    fall := mvT { oprIn := true } 0 }

theorem plain_ok (v st : B) : (plain v st).Ok := by
  have q : ∀ b, (mvT { oprIn := b } 0).Quiet := fun b => ⟨waiting_id, rfl, rfl, rfl⟩
  have s : (mvT { oprIn := true, staIn := true } st).Stat st :=
    ⟨waiting_id, rfl, rfl, rfl, rfl, rfl⟩
  refine ⟨q false, q false, ⟨q true, rfl, rfl⟩, ?_, ?_, ?_, s, s, ?_, q true⟩
  · intro m hm; rw [List.mem_singleton.mp hm]; exact q true
  · intro m hm
    have : m = mvT { oprIn := true, adrIn := true } v := by
      simpa [plain] using hm
    rw [this]; exact ⟨waiting_id, rfl, rfl, rfl⟩
  · intro m hm; rw [List.mem_singleton.mp hm]; exact q true
  · intro m hm; cases hm

/-- The channel about to select the unit `u` for start I/O with the command `k`. -/
def startSel (i : Nat) (u k : B) : X :=
  { c := { chpos := 0x20, cReg := u.setWidth 32 <<< 24, bReg := k.setWidth 32 <<< 24, op := 4,
           tags := { opr := true } },
    g := { instLatch := true, ch := i, chctl := 1 } }

theorem top_of (b : B) : ((b.setWidth 32 <<< 24 : W) >>> 24).setWidth 8 = b := by
  apply BitVec.eq_of_getLsbD_eq
  intro t ht
  simp [BitVec.getLsbD_setWidth, BitVec.getLsbD_ushiftRight, BitVec.getLsbD_shiftLeft, ht,
    show 24 + t < 32 by omega, show t < 32 by omega, show ¬ 24 + t < 24 by omega]

theorem startSel_begin (i : Nat) (u k : B) : Job.sio.Begin i u k (startSel i u k) :=
  ⟨rfl, rfl, top_of u, (by rw [if_neg (by decide)]; exact (top_of k).symm), rfl, rfl, rfl, rfl, rfl,
    ⟨rfl, rfl, rfl⟩⟩

/-- A start I/O for unit 90 with a read, in which the unit answers with status 0, and with busy. -/
theorem C145_example :
    seen 1 (startSel 1 0x90 2) (plain 0x90 0).up = ((plain 0x90 0).lines 0x90 2).map some ∧
    (after 1 (startSel 1 0x90 2) ((plain 0x90 0).up ++ [(plain 0x90 0).fall])).g.cc = 0 ∧
    (after 1 (startSel 1 0x90 2) ((plain 0x90 0x10).up ++ [(plain 0x90 0x10).fall])).g.cc = 1 :=
  ⟨C145_lines_partial _ (plain_ok _ _) (startSel_begin ..),
   ((C145_status_partial _ (plain_ok 0x90 0) (startSel_begin 1 0x90 2)).data (by decide) (by decide)
     (by decide) (Or.inl (by decide))).2.2.2 rfl |>.1,
   ((C145_status_partial _ (plain_ok 0x90 0x10) (startSel_begin 1 0x90 2)).sio1 rfl (by decide)).1⟩

/-! ### A unit which is slow to answer -/

/-- A unit which takes select out and raises operational in later. -/
def Mv.Slow (m : Mv) : Prop := m.Quiet ∧ m.n.t.oprIn = false ∧ m.n.t.sel = false

/-- **C145** is violated for every unit which has not raised operational in in the very cycle in
which it is offered select out, as the 2841 control (model2841.c 804-807): address out stays up, while
the command is put on the bus in the place of the address. With address in, command out is up
together with address out. -/
theorem C145_violated_late (h : j.Begin i u k x) {a b c d m : Mv} (ha : a.Quiet) (hb : b.Quiet)
    (hc : c.Slow) (hd : d.Quiet) (hm : m.Addr) :
    seen i x [a, b, c, d, m] =
      [some { adr := true, sel := false, bus := u }, some { adr := true, bus := u },
       some { adr := true, bus := u }, some { adr := true, bus := k },
       some { adr := true, cmd := true, bus := k }] := by
  have r0 := (clk0 h ha).1
  have r1 := clk1 r0 hb
  have r2 : Mid j i k x.c.flags 3 { adr := true, bus := u } (turn i (turn i (turn i x a) b) c) := by
    generalize turn i (turn i x a) b = z at r1
    obtain ⟨⟨hf, h1, h2, hs⟩, ho, hl⟩ := hc
    have is : j.Is i (c.f z.g) := r1.is.still hf
    have ep : posSel i c.n { c := z.c, g := c.f z.g } =
        { c := { z.c with chclk := 3 }, g := c.f z.g } := by
      unfold posSel; rw [if_pos r1.pos, r1.clk]
      show sel2 _ _ _ = _
      unfold sel2 sel2c
      simp [h1, h2, ho, hl]
    rw [turn_sel r1.pos hs, ep]
    obtain ⟨a1, a2, a3, a4, a5, a6, a7, a8, a9, a10⟩ := fin_lines (i := i) (n := c.n)
      (y := { c := { z.c with chclk := 3 }, g := c.f z.g }) r1.lines (Or.inl rfl) r1.go
    exact ⟨a3.trans r1.pos, a4, by rw [a5]; exact r1.com, a7.trans r1.c2, a8.trans r1.go,
      a9.trans r1.req, a1, a10.trans r1.flags, by rw [a2]; exact is⟩
  have r3 := clk3_adr r2 ⟨rfl, rfl⟩ hd.1 hd.2.2.2
  rw [hd.2.1, hd.2.2.1] at r3
  have r4 := clk3_adr r3 ⟨rfl, rfl⟩ hm.1 hm.2.2.2
  rw [hm.2.1, hm.2.2.1] at r4
  simp only [seen, r0.lines, r1.lines, r2.lines, r3.lines, r4.lines]

/-- Such a unit exists. -/
theorem C145_violated_late_example : (mvT {} 0).Slow ∧ (mvT {} 0).Quiet ∧
    (mvT { oprIn := true, adrIn := true } 0x90).Addr ∧
    Job.sio.Begin 1 0x90 2 (startSel 1 0x90 2) :=
  ⟨⟨⟨waiting_id, rfl, rfl, rfl⟩, rfl, rfl⟩, ⟨waiting_id, rfl, rfl, rfl⟩, ⟨waiting_id, rfl, rfl, rfl⟩,
    startSel_begin ..⟩

/-- The state for a test I/O after an operation which the channel has stopped at the end of its count:
`IF_STOP` is only reset with the next CCW (line 5456). -/
def tioStart : X :=
  { c := { chpos := 0x20, cReg := 0x90000000, ifStop := true, tags := { opr := true } },
    g := { instLatch := true, ch := 1, chctl := 4 } }

/-- **C145** is violated by test I/O after such an operation: command out falls while the unit still
holds address in up. -/
theorem C145_violated_tio :
    seen 1 tioStart [mvT {} 0, mvT { adr := true } 0, mvT { oprIn := true } 0,
      mvT { oprIn := true, adrIn := true } 0x90,
      mvT { oprIn := true, adrIn := true, cmd := true } 0x90] =
    [some { adr := true, sel := false, bus := 0x90 }, some { adr := true, bus := 0x90 },
     some { bus := 0x90 }, some { cmd := true, bus := 0 }, some { bus := 0 }] := by
  decide +kernel

/-! ### The address is to be compared (C146) -/

/-- **C146** is violated: whatever address the unit returns after operational in, it gets the command,
and the start I/O ends with condition code 0 and no interface control check. -/
theorem C146_violated (u v k : B) :
    some { cmd := true, bus := k } ∈ seen 1 (startSel 1 u k) (plain v 0).up ∧
    (∀ m ∈ (plain v 0).addr, m.n.t.adrIn = true ∧ m.n.data = v) ∧ (plain v 0).addr ≠ [] ∧
    (after 1 (startSel 1 u k) ((plain v 0).up ++ [(plain v 0).fall])).g.cc = 0 ∧
    (after 1 (startSel 1 u k) (plain v 0).up).c.flags &&& 2 = 0 := by
  refine ⟨?_, ?_, by simp [plain], ?_, ?_⟩
  · rw [C145_lines_partial _ (plain_ok _ _) (startSel_begin 1 u k)]
    simp [plain, Play.lines]
  · intro m hm
    have : m = mvT { oprIn := true, adrIn := true } v := by simpa [plain] using hm
    rw [this]; exact ⟨rfl, rfl⟩
  · exact ((C145_status_partial _ (plain_ok v 0) (startSel_begin 1 u k)).data (by decide) (by decide)
      (by decide) (Or.inl (by decide))).2.2.2 rfl |>.1
  · rw [((plain v 0).run (plain_ok v 0) (startSel_begin 1 u k)).2.1.flags]
    exact (by decide : (0#16) &&& 2 = 0)

/-- The unit shows an address in the very cycle of operational in. -/
def Mv.Both (v : B) (m : Mv) : Prop :=
  Waiting m.f ∧ m.n.t.sel = false ∧ m.n.t.oprIn = true ∧ m.n.t.adrIn = true ∧ m.n.t.staIn = false ∧
    m.n.t.srvIn = false ∧ m.n.data = v

/-- Part of **C146**: a unit which returns another address together with operational in is not given
the command. The channel notes an interface control check and an instruction ends with condition code
3. -/
theorem C146_wrong_partial {v : B} (h : j.Begin i u k x) (hv : v ≠ u) {a b c d : Mv} (ha : a.Quiet)
    (hb : b.Quiet) (hc : c.Both v) (hd : Waiting d.f ∧ d.n.t.srvIn = false) :
    (∀ o ∈ seen i x [a, b, c, d], ∀ o', o = some o' → o'.cmd = false) ∧
    (after i x [a, b, c, d]).c.chpos = 0 ∧ (after i x [a, b, c, d]).c.tags.sel = false ∧
    (after i x [a, b, c, d]).c.flags.getLsbD 1 = true ∧
    (j ≠ .chain → (after i x [a, b, c, d]).g.cc = 3 ∧ (after i x [a, b, c, d]).g.instLatch = false) := by
  have r0 := clk0 h ha
  have r1 := clk1 r0.1 hb
  have hu : ((turn i (turn i x a) b).c.cReg >>> 24).setWidth 8 = u := by
    have hs := hb.2.2.2
    rw [turn_sel r0.1.pos hs]
    rw [fin_keeps.2.2.2.2.1]
    unfold posSel; rw [if_pos r0.1.pos, r0.1.clk]
    exact r0.2
  show (∀ o ∈ [obs (turn i x a).c, obs (turn i (turn i x a) b).c,
      obs (turn i (turn i (turn i x a) b) c).c, obs (turn i (turn i (turn i (turn i x a) b) c) d).c],
      _) ∧ (turn i (turn i (turn i (turn i x a) b) c) d).c.chpos = 0 ∧ _
  have l0 := r0.1.lines
  have l1 := r1.lines
  rw [l0, l1]
  show _ ∧ _ ∧ (turn i (turn i (turn i (turn i x a) b) c) d).c.tags.sel = false ∧
    (turn i (turn i (turn i (turn i x a) b) c) d).c.flags.getLsbD 1 = true ∧
    (_ → (turn i (turn i (turn i (turn i x a) b) c) d).g.cc = 3 ∧
      (turn i (turn i (turn i (turn i x a) b) c) d).g.instLatch = false)
  generalize turn i (turn i x a) b = z at r1 l1 hu
  obtain ⟨hf, hl, ho, hadr, hst, hs, hdat⟩ := hc
  have is : j.Is i (c.f z.g) := r1.is.still hf
  obtain ⟨-, -, h2, h3, h4, -⟩ := obs_eq l1
  have ne : (c.n.data != (z.c.cReg >>> 24).setWidth 8) = true := by
    rw [hdat, hu]; exact bne_iff_ne.mpr hv
  have ep : posSel i c.n { c := z.c, g := c.f z.g } =
      { c := { z.c with chclk := 3, busOut := 0, busPar := true, flags := z.c.flags ||| 0x02,
                        c2 := true }, g := c.f z.g } := by
    unfold posSel; rw [if_pos r1.pos, r1.clk]
    show sel2 _ _ _ = _
    unfold sel2 sel2c
    have ne' : c.n.data ≠ (z.c.cReg >>> 24).setWidth 8 := bne_iff_ne.mp ne
    simp [hl, ho, hadr, hst, ne']
  have et := turn_sel (i := i) r1.pos hs
  rw [ep] at et
  obtain ⟨b1, b2, b3, b4, b5, b6, b7, b8, b9, b11, -, b10⟩ := fin_keeps (i := i) (n := c.n)
    (y := { c := { z.c with chclk := 3, busOut := 0, busPar := true, flags := z.c.flags ||| 0x02,
                            c2 := true }, g := c.f z.g })
  rw [← et] at b1 b2 b6 b9 b10 b11
  generalize turn i z c = w at b1 b2 b6 b9 b10 b11
  have hcw := b10 h2
  have hpw : w.c.chpos = 0x20 := b2.trans r1.pos
  have is' : j.Is i (d.f w.g) := by rw [b1]; exact is.still hd.1
  obtain ⟨y, ey, hy⟩ : ∃ y, posSel i d.n { c := w.c, g := d.f w.g } = y ∧ y.c.tags.cmd = false ∧
      y.c.chpos = 0 ∧ y.c.tags.sel = false ∧ y.c.flags = w.c.flags ∧
      (j ≠ .chain → y.g.cc = 3 ∧ y.g.instLatch = false) := by
    refine ⟨_, rfl, ?_⟩
    unfold posSel; rw [if_pos hpw, b9]
    show (sel3 i d.n _).c.tags.cmd = false ∧ (sel3 i d.n _).c.chpos = 0 ∧
      (sel3 i d.n _).c.tags.sel = false ∧ (sel3 i d.n _).c.flags = w.c.flags ∧
      (_ → (sel3 i d.n _).g.cc = 3 ∧ (sel3 i d.n _).g.instLatch = false)
    unfold sel3
    rw [if_pos (show w.c.c2 = true from b11)]
    by_cases hj : j = .chain
    · rw [if_neg (show ¬ inst i (d.f w.g) = true by rw [is'.inst]; simpa using hj)]
      exact ⟨hcw, rfl, rfl, rfl, fun h => absurd hj h⟩
    · rw [if_pos (show inst i (d.f w.g) = true by rw [is'.inst]; simpa using hj)]
      exact ⟨hcw, rfl, rfl, rfl, fun _ => ⟨rfl, rfl⟩⟩
  have ed := turn_sel (i := i) hpw hd.2
  rw [ey] at ed
  obtain ⟨d1, d2, d3, d4, d5, d6, d7, d8, d9, d11, -, d10⟩ := fin_keeps (i := i) (n := d.n) (y := y)
  rw [← ed] at d1 d2 d6 d7 d10
  refine ⟨?_, d2.trans hy.2.1, d7.trans hy.2.2.1, ?_, fun h => by rw [d1]; exact hy.2.2.2.2 h⟩
  · intro o ho o' e
    have oc : ∀ c : Chan, c.tags.cmd = false → obs c = some o' → o'.cmd = false :=
      fun c hc e => (obs_eq e).2.2.1.symm.trans hc
    simp only [List.mem_cons, List.not_mem_nil, or_false] at ho
    rcases ho with rfl | rfl | rfl | rfl
    · injection e with e; rw [← e]
    · injection e with e; rw [← e]
    · exact oc _ hcw e
    · exact oc _ (d10 hy.1) e
  · rw [d6, hy.2.2.2.1, b6]
    show (z.c.flags ||| 0x02).getLsbD 1 = true
    rw [BitVec.getLsbD_or]; simp

/-- Such a unit. -/
theorem C146_example : (mvT { oprIn := true, adrIn := true } 0x91).Both 0x91 ∧
    (after 1 (startSel 1 0x90 2) [mvT {} 0, mvT {} 0, mvT { oprIn := true, adrIn := true } 0x91,
      mvT { oprIn := true } 0]).g.cc = 3 := by
  refine ⟨⟨waiting_id, rfl, rfl, rfl, rfl, rfl, rfl⟩, ?_⟩
  exact ((C146_wrong_partial (v := 0x91) (startSel_begin 1 0x90 2) (by decide)
    ⟨waiting_id, rfl, rfl, rfl⟩ ⟨waiting_id, rfl, rfl, rfl⟩
    ⟨waiting_id, rfl, rfl, rfl, rfl, rfl, rfl⟩ ⟨waiting_id, rfl⟩).2.2.2.2 (by decide)).1

/-! ### No unit answers (C147) -/

/-- Select out comes back as select in, and no unit answers. -/
def Mv.Back (m : Mv) : Prop := m.Quiet ∧ m.n.t.sel = true ∧ m.n.t.oprIn = false

/-- Part of **C147**: when no unit takes select out, start I/O and test I/O end in that cycle with
condition code 3, and the lines are down. -/
theorem C147_instruction_partial (h : j.Begin i u k x) (hj : j ≠ .chain) {a b c : Mv} (ha : a.Quiet)
    (hb : b.Quiet) (hc : c.Back) :
    (after i x [a, b, c]).g.cc = 3 ∧ (after i x [a, b, c]).g.instLatch = false ∧
    (after i x [a, b, c]).c.chpos = 0 ∧ (after i x [a, b, c]).c.tags.sel = false ∧
    (after i x [a, b, c]).c.tags.adr = false ∧ (after i x [a, b, c]).c.tags.cmd = false := by
  have r1 := clk1 (clk0 h ha).1 hb
  show (turn i (turn i (turn i x a) b) c).g.cc = 3 ∧ (turn i (turn i (turn i x a) b) c).g.instLatch = false ∧
    (turn i (turn i (turn i x a) b) c).c.chpos = 0 ∧ (turn i (turn i (turn i x a) b) c).c.tags.sel = false ∧
    (turn i (turn i (turn i x a) b) c).c.tags.adr = false ∧
    (turn i (turn i (turn i x a) b) c).c.tags.cmd = false
  generalize turn i (turn i x a) b = z at r1
  obtain ⟨⟨hf, -, -, hs⟩, hl, -⟩ := hc
  have is : j.Is i (c.f z.g) := r1.is.still hf
  obtain ⟨-, -, h2, -⟩ := obs_eq r1.lines
  have hk : ((c.f z.g).chctl != 0) = true := by
    cases j <;> simp only [Job.Is] at is
    · rw [is.2.2]; decide
    · rw [is.2.2]; decide
    · exact absurd rfl hj
  have ep : posSel i c.n { c := z.c, g := c.f z.g } =
      { g := release 3 (c.f z.g),
        c := { z.c with tags := { dropSel z.c.tags with adr := false }, busOut := 0,
                        busPar := true, polling := true, chpos := 0, chclk := 0 } } := by
    unfold posSel; rw [if_pos r1.pos, r1.clk]
    show sel2 _ _ _ = _
    unfold sel2
    rw [if_pos (show (c.n.t.sel && (inst i (c.f z.g) && (c.f z.g).chctl != 0)) = true by
      rw [hl, is.inst, hk]; simpa using hj)]
  rw [turn_sel r1.pos hs, ep]
  obtain ⟨b1, b2, b3, b4, b5, b6, b7, b8, b9, b11, -, b10⟩ := fin_keeps (i := i) (n := c.n)
    (y := { g := release 3 (c.f z.g),
            c := { z.c with tags := { dropSel z.c.tags with adr := false }, busOut := 0,
                            busPar := true, polling := true, chpos := 0, chclk := 0 } })
  exact ⟨by rw [b1]; rfl, by rw [b1]; rfl, b2, b7, b8, b10 h2⟩

/-- **C147** is violated in a chain: when no unit takes select out, the channel stays in selection for
ever, with the command on the bus and no interruption, however long it goes on. -/
theorem C147_violated_chain (h : Job.chain.Begin i u k x) {a b c : Mv} (ha : a.Quiet) (hb : b.Quiet)
    (hc : c.Back) (ms : List Mv) (hm : ∀ m ∈ ms, m.Back) :
    (after i x ([a, b, c] ++ ms)).c.chpos = 0x20 ∧ (after i x ([a, b, c] ++ ms)).c.tags.sel = true ∧
    (after i x ([a, b, c] ++ ms)).c.tags.adr = true := by
  have r1 := clk1 (clk0 h ha).1 hb
  have r2 : Mid .chain i k x.c.flags 3 { adr := true, bus := u }
      (turn i (turn i (turn i x a) b) c) := by
    generalize turn i (turn i x a) b = z at r1
    obtain ⟨⟨hf, h1, h2, hs⟩, hl, ho⟩ := hc
    have is : Job.chain.Is i (c.f z.g) := r1.is.still hf
    have ep : posSel i c.n { c := z.c, g := c.f z.g } =
        { c := { z.c with chclk := 3 }, g := c.f z.g } := by
      unfold posSel; rw [if_pos r1.pos, r1.clk]
      show sel2 _ _ _ = _
      unfold sel2 sel2c
      have := is.inst
      simp [h1, h2, ho, hl, this]
    rw [turn_sel r1.pos hs, ep]
    obtain ⟨a1, a2, a3, a4, a5, a6, a7, a8, a9, a10⟩ := fin_lines (i := i) (n := c.n)
      (y := { c := { z.c with chclk := 3 }, g := c.f z.g }) r1.lines (Or.inl rfl) r1.go
    exact ⟨a3.trans r1.pos, a4, by rw [a5]; exact r1.com, a7.trans r1.c2, a8.trans r1.go,
      a9.trans r1.req, a1, a10.trans r1.flags, by rw [a2]; exact is⟩
  rw [after_append]
  show (after i (turn i (turn i (turn i x a) b) c) ms).c.chpos = 0x20 ∧
    (after i (turn i (turn i (turn i x a) b) c) ms).c.tags.sel = true ∧
    (after i (turn i (turn i (turn i x a) b) c) ms).c.tags.adr = true
  generalize turn i (turn i (turn i x a) b) c = z at r2
  have inv : ∀ (ms : List Mv) (z : X), (∀ m ∈ ms, m.Back) →
      (∃ e, (e.srv = false ∧ e.sel = true) ∧ e.adr = true ∧ Mid .chain i k x.c.flags 3 e z) →
      ∃ e, (e.srv = false ∧ e.sel = true) ∧ e.adr = true ∧
        Mid .chain i k x.c.flags 3 e (after i z ms) := by
    intro ms
    induction ms with
    | nil => intro z _ h; exact h
    | cons m ms ih =>
      intro z hm ⟨e, he, hadr, hz⟩
      obtain ⟨⟨hf, h1, h2, hs⟩, -, -⟩ := hm m (List.mem_cons_self ..)
      have r := clk3_adr hz he hf hs
      rw [h1, h2, hadr] at r
      exact ih _ (fun m' h' => hm m' (List.mem_cons_of_mem _ h')) ⟨_, ⟨rfl, rfl⟩, rfl, r⟩
  obtain ⟨e, he, hadr, hz⟩ := inv ms z hm ⟨_, ⟨rfl, rfl⟩, rfl, r2⟩
  obtain ⟨-, h1, -, -, h4, -⟩ := obs_eq hz.lines
  exact ⟨hz.pos, h4.trans he.2, h1.trans hadr⟩

/-- The start of a selection in a chain, and a bus without the unit. -/
theorem C147_example :
    Job.chain.Begin 1 0x90 2 { startSel 1 0x90 2 with g := {} } ∧ (mvT { sel := true } 0).Back ∧
    (after 1 (startSel 1 0x90 2) [mvT {} 0, mvT {} 0, mvT { sel := true } 0]).g.cc = 3 :=
  ⟨⟨rfl, rfl, top_of 0x90, (by rw [if_neg (by decide)]; exact (top_of 2).symm), rfl, rfl, rfl, rfl,
      rfl, Or.inl rfl⟩, ⟨⟨waiting_id, rfl, rfl, rfl⟩, rfl, rfl⟩,
   (C147_instruction_partial (startSel_begin 1 0x90 2) (by decide) ⟨waiting_id, rfl, rfl, rfl⟩
     ⟨waiting_id, rfl, rfl, rfl⟩ ⟨⟨waiting_id, rfl, rfl, rfl⟩, rfl, rfl⟩).1⟩

end Verif.Sel50
