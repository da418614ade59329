import Verif.Sel50.Viol

/-! # Initial selection by a selector channel of the 2050

The small specification: what the lines show cycle by cycle during a selection, and what the initial
status does to the instruction. -/

namespace Verif.Sel50

/-- One cycle as the channel meets it: the interface, and what the processor and the other channels
have made of the shared signals since. -/
structure Mv where
  n : In
  f : Glob → Glob

/-- The processor waits for the channel: the instruction, its channel and its kind stay. -/
def Waiting (f : Glob → Glob) : Prop :=
  ∀ g, (f g).instLatch = g.instLatch ∧ (f g).ch = g.ch ∧ (f g).chctl = g.chctl

/-- A whole cycle of channel `i`: requests are looked at (lines 5182-5269), then the work is done
(lines 5272-6229). -/
def turn (i : Nat) (x : X) (m : Mv) : X :=
  work i m.n (accept i { c := x.c, g := m.f x.g })

/-- The lines to the device. -/
structure Obs where
  adr : Bool := false
  cmd : Bool := false
  srv : Bool := false
  sel : Bool := true
  bus : B
deriving DecidableEq, Repr

/-- What the device sees; the byte only counts with odd parity. -/
def obs (c : Chan) : Option Obs :=
  if c.busPar = oddPar c.busOut then
    some { adr := c.tags.adr, cmd := c.tags.cmd, srv := c.tags.srv, sel := c.tags.sel,
           bus := c.busOut }
  else none

/-- The lines after each of some cycles. -/
def seen (i : Nat) : X → List Mv → List (Option Obs)
  | _, [] => []
  | x, m :: ms => obs (turn i x m).c :: seen i (turn i x m) ms

/-- The state after them. -/
def after (i : Nat) (x : X) (ms : List Mv) : X := ms.foldl (turn i) x

/-- Test I/O, an instruction of another kind, or a command from a chain. -/
inductive Job
  | tio | sio | chain
deriving DecidableEq

/-- An instruction waits for channel `i`, with its code in `CHCTL` (lines 3903-3992), or none does. -/
def Job.Is (j : Job) (i : Nat) (g : Glob) : Prop :=
  match j with
  | .tio => g.instLatch = true ∧ g.ch = i ∧ g.chctl = 4
  | .sio => g.instLatch = true ∧ g.ch = i ∧ g.chctl = 1
  | .chain => g.instLatch = false ∨ g.ch ≠ i

/-- A selection is to begin for the unit `u` with the command `k`. -/
structure Job.Begin (j : Job) (i : Nat) (u k : B) (x : X) : Prop where
  pos : x.c.chpos = 0x20
  clk : x.c.chclk = 0
  unit : (x.c.cReg >>> 24).setWidth 8 = u
  com : k = if j = .tio then (0 : B) else (x.c.bReg >>> 24).setWidth 8
  c2 : x.c.c2 = false
  go : x.c.ifStop = false
  req : x.c.chreq = 0
  cmd : x.c.tags.cmd = false
  srv : x.c.tags.srv = false
  kind : j.Is i x.g

/-- A cycle with nothing but operational in, if that. -/
def Mv.Quiet (m : Mv) : Prop :=
  Waiting m.f ∧ m.n.t.adrIn = false ∧ m.n.t.staIn = false ∧ m.n.t.srvIn = false
/-- The unit answers to select out. -/
def Mv.Takes (m : Mv) : Prop := m.Quiet ∧ m.n.t.oprIn = true ∧ m.n.t.sel = false
/-- Address in. -/
def Mv.Addr (m : Mv) : Prop :=
  Waiting m.f ∧ m.n.t.adrIn = true ∧ m.n.t.staIn = false ∧ m.n.t.srvIn = false
/-- Status in, with a byte. -/
def Mv.Stat (st : B) (m : Mv) : Prop :=
  Waiting m.f ∧ m.n.t.adrIn = false ∧ m.n.t.staIn = true ∧ m.n.t.srvIn = false ∧ m.n.data = st ∧
    m.n.par = oddPar st

/-- How a selection goes on the side of the unit: two cycles in which nothing happens, then the unit
answers, and after as many cycles as it likes each it shows its address, takes it back, shows its
status, and takes it back. -/
structure Play (st : B) where
  a : Mv
  b : Mv
  takes : Mv
  w1 : List Mv
  addr : List Mv
  w2 : List Mv
  s1 : Mv
  s2 : Mv
  stat : List Mv
  fall : Mv

/-- The cycles up to the last in which status in is up. -/
def Play.up {st} (p : Play st) : List Mv :=
  [p.a, p.b, p.takes] ++ p.w1 ++ p.addr ++ p.w2 ++ [p.s1, p.s2] ++ p.stat

structure Play.Ok {st} (p : Play st) : Prop where
  a : p.a.Quiet
  b : p.b.Quiet
  takes : p.takes.Takes
  w1 : ∀ m ∈ p.w1, m.Quiet
  addr : ∀ m ∈ p.addr, m.Addr
  w2 : ∀ m ∈ p.w2, m.Quiet
  s1 : p.s1.Stat st
  s2 : p.s2.Stat st
  stat : ∀ m ∈ p.stat, m.Stat st
  fall : p.fall.Quiet

/-- What the unit is to see: its address with address out, then select out, then address out falls;
the command, with command out as long as address in is up; service out from the cycle after the
status until it falls. -/
def Play.lines {st} (p : Play st) (u k : B) : List Obs :=
  [{ adr := true, sel := false, bus := u }, { adr := true, bus := u }, { bus := u }] ++
  p.w1.map (fun _ => { bus := k }) ++ p.addr.map (fun _ => { cmd := true, bus := k }) ++
  p.w2.map (fun _ => { bus := k }) ++ [{ bus := k }, { srv := true, bus := k }] ++
  p.stat.map (fun _ => { srv := true, bus := k })

/-! ### The cycle during a selection -/

theorem accept_busy {i : Nat} {x : X} (h : x.c.chpos ≠ 0) : accept i x = x := by
  unfold accept; split
  · rfl
  · rw [if_pos (show (x.c.chpos != 0 || x.g.breakOut || (x.g.breakIn &&& mask i != 0)) = true by
      rw [show (x.c.chpos != 0) = true from bne_iff_ne.mpr h]; rfl)]

/-- Lines 6069-6078. -/
def fin (i : Nat) (n : In) (y : X) : X :=
  { dropSrv i n y with c := dropCmd n (dropSrv i n y).c }

theorem serve_quiet {n : In} {c : Chan} (h : n.t.srvIn = false) : serve n c = c := by
  unfold serve; rw [h]; rfl

/-- After unit selection the position is that of selection, or none. -/
theorem posSel_pos {i : Nat} {n : In} {x : X} (h : x.c.chpos = 0x20) :
    (posSel i n x).c.chpos = 0x20 ∨ (posSel i n x).c.chpos = 0 := by
  unfold posSel; rw [if_pos h]
  split
  · left; exact h
  · left; exact h
  · unfold sel2 sel2c; repeat' split
    all_goals simp [h]
  · unfold sel3 sel3c toBus; repeat' split
    all_goals simp [h]
  · left; exact h
  · split
    · left; exact h
    · right; unfold sel5c; repeat' split
      all_goals rfl
  · split
    · left; exact h
    · right; rfl
  · left; exact h

theorem rest_id {i : Nat} {n : In} {y : X} (h : y.c.chpos = 0x20 ∨ y.c.chpos = 0) :
    posIrq i n (posCmp (posEnd i n (posWf i (posRst y)))) = y := by
  have e1 : posRst y = y := by unfold posRst; rcases h with h | h <;> rw [h] <;> simp
  have e2 : posWf i y = y := by unfold posWf; rcases h with h | h <;> rw [h] <;> simp
  have e3 : posEnd i n y = y := by unfold posEnd; rcases h with h | h <;> rw [h] <;> simp
  have e4 : posCmp y = y := by unfold posCmp; rcases h with h | h <;> rw [h] <;> simp
  have e5 : posIrq i n y = y := by unfold posIrq; rcases h with h | h <;> rw [h] <;> simp
  rw [e1, e2, e3, e4, e5]

theorem work_sel {i : Nat} {n : In} {x : X} (h : x.c.chpos = 0x20) (hs : n.t.srvIn = false) :
    work i n x = fin i n (posSel i n x) := by
  have e1 : posLs x = x := by unfold posLs; rw [h]; simp
  have e2 : posUa x = x := by unfold posUa; rw [h]; simp
  have e3 : posCcw1 i x = x := by unfold posCcw1; rw [h]; simp
  have e4 : posCcw2 i x = x := by unfold posCcw2; rw [h]; simp
  unfold work positions
  rw [if_pos (show x.c.chpos ≠ 0 by rw [h]; decide), e1, e2, e3, e4, rest_id (posSel_pos h)]
  simp only [serve_quiet hs, fin]

theorem turn_sel {i : Nat} {x : X} {m : Mv} (h : x.c.chpos = 0x20) (hs : m.n.t.srvIn = false) :
    turn i x m = fin i m.n (posSel i m.n { c := x.c, g := m.f x.g }) := by
  unfold turn
  rw [accept_busy (show ({ c := x.c, g := m.f x.g } : X).c.chpos ≠ 0 by
    show x.c.chpos ≠ 0; rw [h]; decide), work_sel (x := { c := x.c, g := m.f x.g }) h hs]

/-! ### What stays during a selection -/

theorem Job.Is.still {j : Job} {i g f} (h : Job.Is j i g) (hf : Waiting f) : Job.Is j i (f g) := by
  obtain ⟨a, b, c⟩ := hf g
  cases j <;> simp only [Job.Is, a, b, c] at h ⊢ <;> exact h

theorem Job.Is.inst {j : Job} {i g} (h : Job.Is j i g) : inst i g = decide (j ≠ .chain) := by
  cases j <;> simp only [Job.Is] at h <;> unfold Sel50.inst
  · simp [h.1, h.2.1]
  · simp [h.1, h.2.1]
  · rcases h with h | h <;> simp [h]

theorem Job.Is.tio {j : Job} {i g} (h : Job.Is j i g) :
    (Sel50.inst i g && g.chctl == 4) = decide (j = .tio) := by
  rw [h.inst]; cases j <;> simp only [Job.Is] at h
  · rw [h.2.2]; rfl
  · rw [h.2.2]; rfl
  · rfl

theorem Job.Is.hio {j : Job} {i g} (h : Job.Is j i g) :
    (Sel50.inst i g && g.chctl == 2) = false := by
  rw [h.inst]; cases j <;> simp only [Job.Is] at h
  · rw [h.2.2]; rfl
  · rw [h.2.2]; rfl
  · rfl

/-- During selection. `e`: what is on the lines. -/
structure Mid (j : Job) (i : Nat) (k : B) (fl : BitVec 16) (clk : Nat) (e : Obs) (x : X) :
    Prop where
  pos : x.c.chpos = 0x20
  clk : x.c.chclk = clk
  com : k = if j = .tio then (0 : B) else (x.c.bReg >>> 24).setWidth 8
  c2 : x.c.c2 = false
  go : x.c.ifStop = false
  req : x.c.chreq = 0
  lines : obs x.c = some e
  flags : x.c.flags = fl
  is : j.Is i x.g

theorem obs_eq {c : Chan} {e : Obs} (h : obs c = some e) :
    c.busPar = oddPar c.busOut ∧ c.tags.adr = e.adr ∧ c.tags.cmd = e.cmd ∧ c.tags.srv = e.srv ∧
      c.tags.sel = e.sel ∧ c.busOut = e.bus := by
  unfold obs at h; split at h
  · rename_i hp; injection h with h; subst h; exact ⟨hp, rfl, rfl, rfl, rfl, rfl⟩
  · cases h

/-- Before the status nothing is to be taken down by `fin`: service out is down. -/
theorem fin_lines {i : Nat} {n : In} {y : X} {e : Obs} (hl : obs y.c = some e)
    (hs : e.srv = false ∨ n.t.staIn = true) (hg : y.c.ifStop = false) :
    obs (fin i n y).c = some e ∧ (fin i n y).g = y.g ∧ (fin i n y).c.chpos = y.c.chpos ∧
    (fin i n y).c.chclk = y.c.chclk ∧ (fin i n y).c.bReg = y.c.bReg ∧
    (fin i n y).c.cReg = y.c.cReg ∧ (fin i n y).c.c2 = y.c.c2 ∧
    (fin i n y).c.ifStop = y.c.ifStop ∧ (fin i n y).c.chreq = y.c.chreq ∧
    (fin i n y).c.flags = y.c.flags := by
  obtain ⟨hp, h1, h2, h3, h4, h5⟩ := obs_eq hl
  unfold fin dropCmd dropSrv
  by_cases hd : (n.t.srv && !n.t.srvIn && !n.t.staIn) = true
  · rw [if_pos hd]
    have : e.srv = false := by
      rcases hs with hs | hs
      · exact hs
      · rw [hs] at hd; simp at hd
    simp only [hg, Bool.false_and, Bool.false_eq_true, if_false, and_true]
    rw [← hl]; unfold obs; rw [h3, this]
  · rw [if_neg hd]
    simp only [hg, Bool.false_and, Bool.false_eq_true, if_false, and_true]
    exact hl

variable {j : Job} {i : Nat} {u k : B} {x : X} {m : Mv} {fl : BitVec 16} {e : Obs}

/-- The first cycle. -/
theorem clk0 (h : j.Begin i u k x) (hm : m.Quiet) :
    Mid j i k x.c.flags 1 { adr := true, sel := false, bus := u } (turn i x m) ∧
      ((turn i x m).c.cReg >>> 24).setWidth 8 = u := by
  obtain ⟨hf, -, -, hs⟩ := hm
  have is : j.Is i (m.f x.g) := Job.Is.still h.kind hf
  have ep : posSel i m.n { c := x.c, g := m.f x.g } =
      { c := toBus ((x.c.cReg >>> 24).setWidth 8)
              { x.c with tags := { dropSel x.c.tags with adr := true }, chclk := 1,
                         polling := false }, g := m.f x.g } := by
    unfold posSel; rw [if_pos h.pos, h.clk]; rfl
  rw [turn_sel h.pos hs, ep]
  obtain ⟨a1, a2, a3, a4, a5, a6, a7, a8, a9, a10⟩ := fin_lines (i := i) (n := m.n)
    (y := { c := toBus ((x.c.cReg >>> 24).setWidth 8)
              { x.c with tags := { dropSel x.c.tags with adr := true }, chclk := 1,
                         polling := false }, g := m.f x.g })
    (e := { adr := true, sel := false, bus := u })
    (by unfold obs toBus; simp [dropSel, h.unit, h.cmd, h.srv]) (Or.inl rfl) h.go
  exact ⟨⟨a3.trans h.pos, a4, by rw [a5]; exact h.com, a7.trans h.c2, a8.trans h.go,
    a9.trans h.req, a1, a10, by rw [a2]; exact is⟩, by rw [a6]; exact h.unit⟩

/-- Select out is raised. -/
theorem clk1 (h : Mid j i k fl 1 { adr := true, sel := false, bus := u } x) (hm : m.Quiet) :
    Mid j i k fl 2 { adr := true, bus := u } (turn i x m) := by
  obtain ⟨hf, -, -, hs⟩ := hm
  have is : j.Is i (m.f x.g) := h.is.still hf
  have ep : posSel i m.n { c := x.c, g := m.f x.g } =
      { c := { x.c with tags := { x.c.tags with sel := true, hld := true }, chclk := 2 },
        g := m.f x.g } := by
    unfold posSel; rw [if_pos h.pos, h.clk]; rfl
  rw [turn_sel h.pos hs, ep]
  obtain ⟨hp, h1, h2, h3, h4, h5⟩ := obs_eq h.lines
  obtain ⟨a1, a2, a3, a4, a5, a6, a7, a8, a9, a10⟩ := fin_lines (i := i) (n := m.n)
    (y := { c := { x.c with tags := { x.c.tags with sel := true, hld := true }, chclk := 2 },
            g := m.f x.g })
    (e := { adr := true, bus := u })
    (by unfold obs; rw [if_pos hp]; simp only [h1, h2, h3, h5]) (Or.inl rfl) h.go
  exact ⟨a3.trans h.pos, a4, by rw [a5]; exact h.com, a7.trans h.c2, a8.trans h.go,
    a9.trans h.req, a1, a10.trans h.flags, by rw [a2]; exact is⟩

/-- The unit answers. -/
theorem clk2 (h : Mid j i k fl 2 { adr := true, bus := u } x) (hm : m.Takes) :
    Mid j i k fl 3 { bus := u } (turn i x m) := by
  obtain ⟨⟨hf, ha, ht, hs⟩, ho, hl⟩ := hm
  have is : j.Is i (m.f x.g) := h.is.still hf
  have ep : posSel i m.n { c := x.c, g := m.f x.g } =
      { c := { x.c with chclk := 3, tags := { x.c.tags with adr := false, sup := false } },
        g := m.f x.g } := by
    unfold posSel; rw [if_pos h.pos, h.clk]
    show sel2 _ _ _ = _
    unfold sel2 sel2c
    simp [ha, ht, ho, hl]
  rw [turn_sel h.pos hs, ep]
  obtain ⟨hp, h1, h2, h3, h4, h5⟩ := obs_eq h.lines
  obtain ⟨a1, a2, a3, a4, a5, a6, a7, a8, a9, a10⟩ := fin_lines (i := i) (n := m.n)
    (y := { c := { x.c with chclk := 3, tags := { x.c.tags with adr := false, sup := false } },
            g := m.f x.g })
    (e := { bus := u })
    (by unfold obs; rw [if_pos hp]; simp only [h2, h3, h4, h5]) (Or.inl rfl) h.go
  exact ⟨a3.trans h.pos, a4, by rw [a5]; exact h.com, a7.trans h.c2, a8.trans h.go,
    a9.trans h.req, a1, a10.trans h.flags, by rw [a2]; exact is⟩

/-- The command is on the bus; command out follows address in; the clock goes on with status in. -/
theorem clk3_adr (h : Mid j i k fl 3 e x) (he : e.srv = false ∧ e.sel = true)
    (hf : Waiting m.f) (hs : m.n.t.srvIn = false) :
    Mid j i k fl (if m.n.t.staIn then 4 else 3) { adr := e.adr, cmd := m.n.t.adrIn, bus := k }
      (turn i x m) := by
  have is : j.Is i (m.f x.g) := h.is.still hf
  obtain ⟨hp, h1, h2, h3, h4, h5⟩ := obs_eq h.lines
  obtain ⟨c', ep, hc⟩ : ∃ c', posSel i m.n { c := x.c, g := m.f x.g } = { c := c', g := m.f x.g } ∧
      (c'.chpos = x.c.chpos ∧ c'.chclk = (if m.n.t.staIn then 4 else 3) ∧ c'.bReg = x.c.bReg ∧
       c'.c2 = x.c.c2 ∧ c'.ifStop = x.c.ifStop ∧ c'.chreq = x.c.chreq ∧ c'.flags = x.c.flags ∧
       obs c' = some { adr := e.adr, cmd := m.n.t.adrIn, bus := k }) := by
    by_cases hj : j = .tio
    · refine ⟨sel3c m.n { x.c with busOut := 0, busPar := true }, ?_, ?_⟩
      · unfold posSel; rw [if_pos h.pos, h.clk]
        show sel3 _ _ _ = _
        unfold sel3
        rw [if_neg (show ¬ x.c.c2 = true by rw [h.c2]; decide)]
        rw [if_pos (show (inst i (m.f x.g) && (m.f x.g).chctl == 4) = true by
          rw [is.tio]; exact decide_eq_true hj)]
      · unfold sel3c
        refine ⟨rfl, by show (if _ then 4 else x.c.chclk) = _; rw [h.clk], rfl, rfl, rfl, rfl, rfl, ?_⟩
        have : k = 0 := by have := h.com; rwa [if_pos hj] at this
        unfold obs
        rw [if_pos (show (true : Bool) = oddPar 0 by decide)]
        simp only [h1, h3, h4, he, this]
    · refine ⟨sel3c m.n (toBus ((x.c.bReg >>> 24).setWidth 8) { x.c with cReg := x.c.bReg }), ?_, ?_⟩
      · unfold posSel; rw [if_pos h.pos, h.clk]
        show sel3 _ _ _ = _
        unfold sel3
        rw [if_neg (show ¬ x.c.c2 = true by rw [h.c2]; decide)]
        rw [if_neg (show ¬ (inst i (m.f x.g) && (m.f x.g).chctl == 4) = true by
          rw [is.tio]; simpa using hj)]
        rw [if_neg (show ¬ (inst i (m.f x.g) && (m.f x.g).chctl == 2) = true by
          rw [is.hio]; decide)]
      · unfold sel3c
        refine ⟨rfl, by show (if _ then 4 else x.c.chclk) = _; rw [h.clk], rfl, rfl, rfl, rfl, rfl, ?_⟩
        have : k = (x.c.bReg >>> 24).setWidth 8 := by have := h.com; rwa [if_neg hj] at this
        unfold obs toBus
        rw [if_pos rfl]
        simp only [h1, h3, h4, he, ← this]
  rw [turn_sel h.pos hs, ep]
  obtain ⟨b1, b2, b3, b4, b5, b6, b7, b8⟩ := hc
  obtain ⟨a1, a2, a3, a4, a5, a6, a7, a8, a9, a10⟩ := fin_lines (i := i) (n := m.n)
    (y := { c := c', g := m.f x.g }) b8 (Or.inl rfl) (b5.trans h.go)
  exact ⟨a3.trans (b1.trans h.pos), a4.trans b2, by rw [a5, b3]; exact h.com,
    a7.trans (b4.trans h.c2), a8.trans (b5.trans h.go), a9.trans (b6.trans h.req), a1,
    a10.trans (b7.trans h.flags), by rw [a2]; exact is⟩

theorem clk3 (h : Mid j i k fl 3 e x) (he : e.adr = false ∧ e.srv = false ∧ e.sel = true)
    (hf : Waiting m.f) (hs : m.n.t.srvIn = false) :
    Mid j i k fl (if m.n.t.staIn then 4 else 3) { cmd := m.n.t.adrIn, bus := k } (turn i x m) := by
  have := clk3_adr h he.2 hf hs
  rwa [he.1] at this

/-- The status is taken. -/
theorem clk4 {st : B} (h : Mid j i k fl 4 { bus := k } x) (hm : m.Stat st) :
    Mid j i k fl 5 { srv := true, bus := k } (turn i x m) ∧
      ((turn i x m).c.cReg >>> 24).setWidth 8 = st := by
  obtain ⟨hf, -, ht, hs, hd, hpar⟩ := hm
  have is : j.Is i (m.f x.g) := h.is.still hf
  obtain ⟨hp, h1, h2, h3, h4, h5⟩ := obs_eq h.lines
  have ep : posSel i m.n { c := x.c, g := m.f x.g } =
      { c := { x.c with cReg := putStatus x.c.cReg st, chclk := 5,
                        tags := { x.c.tags with srv := true } }, g := m.f x.g } := by
    unfold posSel; rw [if_pos h.pos, h.clk]
    have hb : m.n.badPar = false := by unfold In.badPar; rw [hpar, hd]; simp
    show ({ c := { x.c with
                   cReg := putStatus x.c.cReg m.n.data, chclk := 5,
                   tags := { x.c.tags with srv := true },
                   flags := if m.n.badPar then x.c.flags ||| 0x02 else x.c.flags },
            g := m.f x.g } : X) = _
    rw [hb, hd]; rfl
  rw [turn_sel h.pos hs, ep]
  obtain ⟨a1, a2, a3, a4, a5, a6, a7, a8, a9, a10⟩ := fin_lines (i := i) (n := m.n)
    (y := { c := { x.c with cReg := putStatus x.c.cReg st, chclk := 5,
                            tags := { x.c.tags with srv := true } }, g := m.f x.g })
    (e := { srv := true, bus := k })
    (by unfold obs; rw [if_pos hp]; simp only [h1, h2, h4, h5]) (Or.inr ht) h.go
  refine ⟨⟨a3.trans h.pos, a4, by rw [a5]; exact h.com, a7.trans h.c2, a8.trans h.go,
    a9.trans h.req, a1, a10.trans h.flags, by rw [a2]; exact is⟩, ?_⟩
  rw [a6]
  show ((putStatus x.c.cReg st) >>> 24).setWidth 8 = st
  unfold putStatus
  generalize x.c.cReg = w
  apply BitVec.eq_of_getLsbD_eq
  intro t ht
  have : ∀ t : Fin 8, (0x00ffffff#32).getLsbD (24 + t.val) = false := by decide
  simp [BitVec.getLsbD_setWidth, BitVec.getLsbD_ushiftRight, BitVec.getLsbD_or, BitVec.getLsbD_and,
    BitVec.getLsbD_shiftLeft, ht, this ⟨t, ht⟩]
  simp [show 24 + t < 32 by omega, show t < 32 by omega]

/-- Service out is up until status in falls. -/
theorem clk5 {st : B} (h : Mid j i k fl 5 { srv := true, bus := k } x ∧
      (x.c.cReg >>> 24).setWidth 8 = st) (hm : m.Stat st) :
    Mid j i k fl 5 { srv := true, bus := k } (turn i x m) ∧
      ((turn i x m).c.cReg >>> 24).setWidth 8 = st := by
  obtain ⟨h, hst⟩ := h
  obtain ⟨hf, -, ht, hs, hd, hpar⟩ := hm
  have is : j.Is i (m.f x.g) := h.is.still hf
  have ep : posSel i m.n { c := x.c, g := m.f x.g } = { c := x.c, g := m.f x.g } := by
    unfold posSel; rw [if_pos h.pos, h.clk]
    show (if _ then _ else _) = _
    rw [if_pos ht]
  rw [turn_sel h.pos hs, ep]
  obtain ⟨a1, a2, a3, a4, a5, a6, a7, a8, a9, a10⟩ := fin_lines (i := i) (n := m.n)
    (y := { c := x.c, g := m.f x.g }) h.lines (Or.inr ht) h.go
  exact ⟨⟨a3.trans h.pos, a4.trans h.clk, by rw [a5]; exact h.com, a7.trans h.c2, a8.trans h.go,
    a9.trans h.req, a1, a10.trans h.flags, by rw [a2]; exact is⟩, by rw [a6]; exact hst⟩

theorem seen_append (x : X) (a b : List Mv) :
    seen i x (a ++ b) = seen i x a ++ seen i (after i x a) b := by
  induction a generalizing x with
  | nil => rfl
  | cons m a ih => simp only [List.cons_append, seen, ih]; rfl

theorem after_append (x : X) (a b : List Mv) :
    after i x (a ++ b) = after i (after i x a) b := by
  unfold after; exact List.foldl_append

/-- Cycles of one kind keep an invariant, and show the same lines. -/
theorem seen_const {P : X → Prop} {Q : Mv → Prop} {o : Obs}
    (step : ∀ x m, P x → Q m → P (turn i x m) ∧ obs (turn i x m).c = some o) (x : X) (h : P x)
    (ms : List Mv) (hm : ∀ m ∈ ms, Q m) :
    seen i x ms = ms.map (fun _ => some o) ∧ P (after i x ms) := by
  induction ms generalizing x with
  | nil => exact ⟨rfl, h⟩
  | cons m ms ih =>
    have s := step x m h (hm m (List.mem_cons_self ..))
    have r := ih (turn i x m) s.1 (fun m' h' => hm m' (List.mem_cons_of_mem _ h'))
    exact ⟨by simp only [seen, List.map_cons, s.2, r.1], r.2⟩

/-- Clock 3, without status in. -/
def At3 (j : Job) (i : Nat) (k : B) (fl : BitVec 16) (x : X) : Prop :=
  ∃ e : Obs, (e.adr = false ∧ e.srv = false ∧ e.sel = true) ∧ Mid j i k fl 3 e x

theorem at3_step {b : Bool} (h : At3 j i k fl x) (hf : Waiting m.f) (ha : m.n.t.adrIn = b)
    (ht : m.n.t.staIn = false) (hs : m.n.t.srvIn = false) :
    At3 j i k fl (turn i x m) ∧ obs (turn i x m).c = some { cmd := b, bus := k } := by
  obtain ⟨e, he, h⟩ := h
  have r := clk3 h he hf hs
  rw [ht, ha] at r
  exact ⟨⟨_, ⟨rfl, rfl, rfl⟩, r⟩, r.lines⟩

/-- The selection up to the fall of status in. -/
theorem Play.run {st : B} (p : Play st) (hp : p.Ok) (h : j.Begin i u k x) :
    seen i x p.up = (p.lines u k).map some ∧
    Mid j i k x.c.flags 5 { srv := true, bus := k } (after i x p.up) ∧
    ((after i x p.up).c.cReg >>> 24).setWidth 8 = st := by
  have r0 := (clk0 h hp.a).1
  have r1 := clk1 r0 hp.b
  have r2 := clk2 r1 hp.takes
  have q0 : At3 j i k x.c.flags (turn i (turn i (turn i x p.a) p.b) p.takes) :=
    ⟨_, ⟨rfl, rfl, rfl⟩, r2⟩
  have q1 := seen_const (P := At3 j i k x.c.flags) (Q := Mv.Quiet)
    (fun x m h hm => at3_step h hm.1 hm.2.1 hm.2.2.1 hm.2.2.2) _ q0 p.w1 hp.w1
  have q2 := seen_const (P := At3 j i k x.c.flags) (Q := Mv.Addr)
    (fun x m h hm => at3_step h hm.1 hm.2.1 hm.2.2.1 hm.2.2.2) _ q1.2 p.addr hp.addr
  have q3 := seen_const (P := At3 j i k x.c.flags) (Q := Mv.Quiet)
    (fun x m h hm => at3_step h hm.1 hm.2.1 hm.2.2.1 hm.2.2.2) _ q2.2 p.w2 hp.w2
  obtain ⟨e, he, q4⟩ := q3.2
  have q5 := clk3 q4 he hp.s1.1 hp.s1.2.2.2.1
  rw [hp.s1.2.1, hp.s1.2.2.1] at q5
  have q6 := clk4 q5 hp.s2
  have q7 := seen_const (P := fun x' => Mid j i k x.c.flags 5 { srv := true, bus := k } x' ∧
      (x'.c.cReg >>> 24).setWidth 8 = st) (Q := Mv.Stat st)
    (fun x m h hm => ⟨clk5 h hm, (clk5 h hm).1.lines⟩) _ q6 p.stat hp.stat
  refine ⟨?_, ?_⟩
  · unfold Play.up Play.lines
    simp only [seen_append, after_append, List.map_append, List.map_map]
    have e1 : seen i x [p.a, p.b, p.takes] =
        [some { adr := true, sel := false, bus := u }, some { adr := true, bus := u },
          some { bus := u }] := by
      simp only [seen, r0.lines, r1.lines, r2.lines]
    rw [e1]
    show _ ++ seen i (turn i (turn i (turn i x p.a) p.b) p.takes) p.w1 ++ seen i (after i (turn i (turn i (turn i x p.a) p.b) p.takes) p.w1) p.addr ++ _ ++ _ ++ _ = _
    rw [q1.1, q2.1]
    show _ ++ _ ++ _ ++ seen i (after i (after i (turn i (turn i (turn i x p.a) p.b) p.takes) p.w1) p.addr) p.w2 ++ seen i (after i (after i (after i (turn i (turn i (turn i x p.a) p.b) p.takes) p.w1) p.addr) p.w2) [p.s1, p.s2] ++ seen i _ p.stat = _
    rw [q3.1]
    have e2 : seen i (after i (after i (after i (turn i (turn i (turn i x p.a) p.b) p.takes) p.w1) p.addr) p.w2) [p.s1, p.s2] = [some { bus := k }, some { srv := true, bus := k }] := by
      simp only [seen, q5.lines, q6.1.lines]
    rw [e2]
    have e3 := q7.1
    refine Eq.trans (congrArg (fun l => _ ++ l) e3) ?_
    rfl
  · unfold Play.up
    simp only [after_append]
    exact q7.2

end Verif.Sel50
