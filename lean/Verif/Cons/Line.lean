import Verif.Cons.Props
/-!
# Reading a line from the 1052 (C83)
-/
namespace Verif.Cons
open Verif.Bus
open Verif.Card (Res)

namespace Spec

/-- The console and the interface it is on. -/
abbrev Link := Bus.Spec.Link S

/-- Something happens at the terminal, or an event fires. -/
def act (L : Link) (o : DOp) : Res Link := (dstep L.s o).bind (fun s => .ok { L with s })

/-- What the channel sees when it serves a request. -/
structure Seen where
  /-- request in was up -/
  request : Bool
  /-- the byte on bus in with address in -/
  address : Nat

/-- The channel serves a request: the console is called once, select out is raised, address in is answered by command
out with zero, and command out drops.  At the end the console should offer data or status. -/
def serve (L : Link) : Res (Link × Seen) :=
  (Bus.Spec.poll dev L id 0).bind fun L =>
  let r := L.t.reqIn
  (Bus.Spec.poll dev L (fun t => { t with sel := true }) 0).bind fun L =>
  (Bus.Spec.poll dev L id 0).bind fun L =>
  let a := if L.t.adrIn then L.bi else 0
  (Bus.Spec.poll dev L (fun t => { t with cmd := true }) (Bus.Spec.byte 0)).bind fun L =>
  (Bus.Spec.poll dev L (fun t => { t with cmd := false }) 0).bind fun L => .ok (L, ⟨r, a⟩)

/-- A key is pressed, the console looks at the keyboard, the channel serves the request and takes a byte if service in is
up: what was seen and the byte on bus in. -/
def key (L : Link) (c : Nat) : Res (Link × Seen × Option Nat) :=
  (act L (.packet [c])).bind fun L =>
  (act L (.fire .poll)).bind fun L =>
  (serve L).bind fun q =>
  let d := if q.1.t.srvIn then some q.1.bi else none
  (Bus.Spec.accept dev q.1 0).bind fun L => .ok (L, q.2, d)

/-- Keys one after the other. -/
def keys (L : Link) : List Nat → Res (Link × List (Seen × Option Nat))
  | [] => .ok (L, [])
  | c :: cs => (key L c).bind fun q => (keys q.1 cs).bind fun r => .ok (r.1, q.2 :: r.2)

/-- The characters of a line: seven bits, not form feed, escape, control C or carriage return. -/
def Printing (c : Nat) : Prop := c < 128 ∧ c ≠ 3 ∧ c ≠ 12 ∧ c ≠ 13 ∧ c ≠ 27

instance (c : Nat) : Decidable (Printing c) := inferInstanceAs (Decidable (_ ∧ _))

/-- At rest, with somebody at the terminal, and the keyboard looked at from time to time. -/
structure Ready (s : S) : Prop where
  rest : AtRest s
  cons : s.t.cons = true
  tns : s.t.tns = .norm
  ptr : s.t.inPtr < 256
  poll : .poll ∈ s.evs

end Spec

/-- A read is in progress and the channel is free. -/
structure Waiting (s : S) : Prop where
  st : s.st = .idle
  busy : s.busy = true
  cmd : s.cmd = 10
  dataEnd : s.dataEnd = false
  cmdDone : s.cmdDone = false
  request : s.request = false
  stacked : s.stacked = false
  status : s.status = 0
  poll : .poll ∈ s.evs
  cons : s.t.cons = true
  flag : s.t.inFlg = true
  len : s.t.inLen = 0
  ptr : s.t.inPtr = s.t.outPtr
  lt : s.t.inPtr < 256
  home : s.t.home = false
  attn : s.t.attn = false
  cancel : s.t.cancel = false
  eob : s.t.eob = false
  tns : s.t.tns = .norm

theorem act_ok {L : Spec.Link} {o : DOp} {s : S} (h : dstep L.s o = .ok s) : Spec.act L o = .ok { L with s } := by
  unfold Spec.act; rw [h]; rfl

/-! ## Serving a request -/

/-- The first three calls of the console when it asks for service. -/
theorem serve_head (s : S) (bi : Nat) (h1 : s.st = .idle) (h2 : s.request = true) {s' : S} {t' : Tags} {bi' : Nat}
    (h3 : dev { s with selected := true, st := .command } { Bus.Spec.rest with cmd := true, oprIn := true, adrIn := true } (Bus.Spec.byte 0) (bytePar s.addr) = .ok (s', t', bi'))
    {s'' : S} {t'' : Tags} {bi'' : Nat} (h4 : dev s' { t' with cmd := false } 0 bi' = .ok (s'', t'', bi'')) :
    Spec.serve ⟨s, Bus.Spec.rest, bi⟩ = .ok (⟨s'', t'', bi''⟩, ⟨true, bytePar s.addr⟩) := by
  have p1 : dev s Bus.Spec.rest 0 bi = .ok (s, { Bus.Spec.rest with reqIn := true }, bi) := by
    unfold dev
    rw [if_neg (by simp [Bus.Spec.rest]), h1]
    simp [idle, Bus.Spec.rest, h2]
  have p2 : dev s { Bus.Spec.rest with reqIn := true, sel := true } 0 bi = .ok ({ s with selected := true, st := .initSel }, { Bus.Spec.rest with oprIn := true }, bytePar s.addr) := by
    unfold dev
    rw [if_neg (by simp [Bus.Spec.rest]), h1]
    simp [idle, Bus.Spec.rest, h2]
  have p3 : dev { s with selected := true, st := .initSel } { Bus.Spec.rest with oprIn := true } 0 (bytePar s.addr) =
      .ok ({ s with selected := true, st := .command }, { Bus.Spec.rest with oprIn := true, adrIn := true }, bytePar s.addr) := rfl
  exact bind_ok (poll_ok p1) (bind_ok (poll_ok p2) (bind_ok (poll_ok p3) (bind_ok (poll_ok h3) (bind_ok (poll_ok h4) rfl))))

/-- The console offers a byte. -/
theorem serve_data (s : S) (bi : Nat) (h1 : s.st = .idle) (h2 : s.request = true) (h3 : s.busy = true) (h4 : s.dataEnd = false) (h5 : s.data < 256) :
    Spec.serve ⟨s, Bus.Spec.rest, bi⟩ = .ok (⟨{ s with selected := true, request := false, st := .data2 }, { Bus.Spec.rest with oprIn := true, srvIn := true }, Bus.Spec.byte s.data⟩, ⟨true, bytePar s.addr⟩) := by
  refine serve_head s bi h1 h2 (s' := { s with selected := true, request := false, st := .data1 }) (t' := { Bus.Spec.rest with cmd := true, oprIn := true }) (bi' := bytePar s.addr) ?_ ?_
  · simp [dev, Bus.Spec.rest, command, commandOut, parBad_byte 0 (by decide), h3, h4]
  · simp [dev, Bus.Spec.rest, data1, withPar_ok _ h5, Res.bind]

/-- The console offers ending status. -/
theorem serve_end (s : S) (bi : Nat) (h1 : s.st = .idle) (h2 : s.request = true) (h3 : s.busy = true) (h4 : s.dataEnd = true) (h5 : s.cmdDone = true) (h6 : s.status < 256) (h7 : s.t.attn = false) :
    Spec.serve ⟨s, Bus.Spec.rest, bi⟩ =
      .ok (⟨{ s with selected := true, request := false, st := .statusAccept, status := s.status ||| (sChnEnd ||| sDevEnd), t := (func s.t 1).1 }, { Bus.Spec.rest with oprIn := true, staIn := true }, Bus.Spec.byte (s.status ||| (sChnEnd ||| sDevEnd))⟩, ⟨true, bytePar s.addr⟩) := by
  refine serve_head s bi h1 h2 (s' := { s with selected := true, request := false, st := .status, status := s.status ||| (sChnEnd ||| sDevEnd), t := (func s.t 1).1 }) (t' := { Bus.Spec.rest with cmd := true, oprIn := true }) (bi' := bytePar s.addr) ?_ ?_
  · simp [dev, Bus.Spec.rest, command, commandOut, parBad_byte 0 (by decide), h3, h4, h5, signal]
  · have a := func_attn s.t 1 h7
    simp [dev, Bus.Spec.rest, status, a, withPar_ok _ (or8 h6 ce_de), Res.bind]

/-! ## One key -/

theorem ebcdic_lt (c : Nat) (h : c < 128) : Xlat.asciiToEbcdic c = some (asciiToEbcdicTab.getD c 0) ∧ asciiToEbcdicTab.getD c 0 < 256 := by
  have key : ∀ c : Fin 128, Xlat.asciiToEbcdic c = some (asciiToEbcdicTab.getD c.val 0) ∧ asciiToEbcdicTab.getD c.val 0 < 256 := by decide +kernel
  exact key ⟨c, h⟩

/-- A key of a line: the byte comes to the channel and the console waits for the next one. -/
theorem key_printing (s : S) (bi c : Nat) (h : Waiting s) (hc : Spec.Printing c) :
    ∃ s', Spec.key ⟨s, Bus.Spec.rest, bi⟩ c = .ok (⟨s', Bus.Spec.rest, Spec.ebcdic c⟩, ⟨true, bytePar s.addr⟩, some (Spec.ebcdic c)) ∧
      Waiting s' ∧ s'.addr = s.addr ∧ s'.t.sent = s.t.sent ++ [c] := by
  obtain ⟨c1, c3, c12, c13, c27⟩ := hc
  obtain ⟨e1, e2⟩ := ebcdic_lt c c1
  have hm : c % 256 = c := Nat.mod_eq_of_lt (by omega)
  let t1 : T := { s.t with key := fun i => if i = s.t.inPtr then c else s.t.key i, inPtr := (s.t.inPtr + 1) % 256, inLen := 1, sent := s.t.sent ++ [c] }
  have g1 : packet s.t [c] = .ok t1 := by
    have hl : s.t.inLen < 256 := by rw [h.len]; decide
    have c255 : c ≠ 255 := by omega
    simp [packet, h.cons, packetLoop, h.len, telnet, h.tns, c255, pushChar, c12, c27, c3, c13, h.flag, h.lt, Res.bind, t1]
  let t2 : T := { t1 with outPtr := (s.t.outPtr + 1) % 256, inLen := 0 }
  have g2 : inp t1 = .ok (t2, some (Spec.ebcdic c)) := by
    have hk : t1.key t1.outPtr = c := by simp [t1, h.ptr]
    have hp : t1.outPtr < 256 := by simp [t1, ← h.ptr, h.lt]
    unfold inp
    rw [if_pos ⟨h.flag, by simp [t1]⟩, if_pos hp, hk, hm, e1]
    simp only [Card.look, Res.bind]
    rw [withPar_ok _ e2]
    rfl
  have g3 : func t1 0 = (t1, 0x50, true) := by
    have q : tagsOut t1 = 0x50 := by simp [tagsOut, t1, h.home, h.attn]
    have q2 : signals t1 0 = t1 := by simp [signals, tst]
    unfold func
    rw [if_neg (by simp [t1, h.cons])]
    simp only [q2, q]
    rfl
  let s1 : S := { s with t := t1 }
  let s2 : S := { s with evs := s.evs.erase .poll ++ [.poll], t := t2, data := asciiToEbcdicTab.getD c 0, dataRdy := true, request := true }
  have p1 : Spec.act ⟨s, Bus.Spec.rest, bi⟩ (.packet [c]) = .ok ⟨s1, Bus.Spec.rest, bi⟩ := act_ok (by simp [dstep, g1, Res.bind, s1])
  have p2 : Spec.act ⟨s1, Bus.Spec.rest, bi⟩ (.fire .poll) = .ok ⟨s2, Bus.Spec.rest, bi⟩ := by
    refine act_ok ?_
    have hb : Spec.ebcdic c % 256 = asciiToEbcdicTab.getD c 0 := byte_mod _ e2
    have k1 : tst (10 : Nat) 1 = false := rfl
    have k2 : tst (0x50 : Nat) 0x40 = true := rfl
    have k3 : tst (0x50 : Nat) 0xa0 = false := rfl
    have k4 : tst (0x50 : Nat) 2 = false := rfl
    simp only [dstep, s1, if_pos h.poll, pollCb, g3, h.cmd, k1, k2, and_self, if_true, g2, Res.bind, Option.getD, hb, pollEnd, k3, k4, addEv, s2]
    simp
  have p3 := serve_data s2 bi h.st rfl h.busy h.dataEnd e2
  let s3 : S := { s2 with selected := true, request := false, st := .data2 }
  let s4 : S := { s2 with selected := false, request := false, dataRdy := false, st := .idle }
  have p4 : Bus.Spec.accept dev ⟨s3, { Bus.Spec.rest with oprIn := true, srvIn := true }, Spec.ebcdic c⟩ 0 = .ok ⟨s4, Bus.Spec.rest, Spec.ebcdic c⟩ := by
    have a1 : dev s3 { Bus.Spec.rest with oprIn := true, srvIn := true, srv := true } 0 (Spec.ebcdic c) = .ok ({ s3 with dataRdy := false, st := .opr }, { Bus.Spec.rest with oprIn := true, srv := true }, Spec.ebcdic c) := by
      have k1 : tst (10 : Nat) 1 = false := rfl
      have w : withPar s3.data = .ok (Spec.ebcdic c) := withPar_ok _ e2
      show data2 s3 _ 0 = _
      unfold data2
      rw [w]
      simp [s3, s2, Bus.Spec.rest, Res.bind, h.cmd, k1]
    have a2 : dev { s3 with dataRdy := false, st := .opr } { Bus.Spec.rest with oprIn := true } 0 (Spec.ebcdic c) = .ok (s4, Bus.Spec.rest, Spec.ebcdic c) := by
      simp [dev, s3, s2, s4, Bus.Spec.rest, opr, h.dataEnd, h.cmdDone]
    exact bind_ok (poll_ok a1) (poll_ok a2)
  refine ⟨s4, bind_ok p1 (bind_ok p2 (bind_ok p3 (bind_ok p4 rfl))), ?_, rfl, rfl⟩
  exact ⟨rfl, h.busy, h.cmd, h.dataEnd, h.cmdDone, rfl, h.stacked, h.status, by simp [s4, s2], h.cons, h.flag, rfl,
    by simp [s4, s2, t2, t1, h.ptr], Nat.mod_lt _ (by decide), h.home, h.attn, h.cancel, h.eob, h.tns⟩

theorem keys_printing (cs : List Nat) : ∀ (s : S) (bi : Nat), Waiting s → (∀ c ∈ cs, Spec.Printing c) →
    ∃ s' bi', Spec.keys ⟨s, Bus.Spec.rest, bi⟩ cs = .ok (⟨s', Bus.Spec.rest, bi'⟩, cs.map (fun c => (⟨true, bytePar s.addr⟩, some (Spec.ebcdic c)))) ∧
      Waiting s' ∧ s'.addr = s.addr ∧ s'.t.sent = s.t.sent ++ cs := by
  induction cs with
  | nil => intro s bi h _; exact ⟨s, bi, rfl, h, rfl, by simp⟩
  | cons c cs ih =>
    intro s bi h hc
    obtain ⟨s1, a1, a2, a3, a4⟩ := key_printing s bi c h (hc c List.mem_cons_self)
    obtain ⟨s2, bi2, b1, b2, b3, b4⟩ := ih s1 (Spec.ebcdic c) a2 (fun c h => hc c (List.mem_cons_of_mem _ h))
    refine ⟨s2, bi2, bind_ok a1 (bind_ok b1 ?_), b2, b3.trans a3, ?_⟩
    · rw [a3]; rfl
    · rw [b4, a4]; simp

/-! ## The end of the line -/

/-- Carriage return or control C: the console ends the read, and its keyboard is locked. -/
theorem key_last (s : S) (bi c : Nat) (h : Waiting s) (hc : c = 13 ∨ c = 3) :
    ∃ L q, (Spec.act ⟨s, Bus.Spec.rest, bi⟩ (.packet [c])).bind (fun L => (Spec.act L (.fire .poll)).bind Spec.serve) = .ok (L, q) ∧ q = ⟨true, bytePar s.addr⟩ ∧
      L.t = { Bus.Spec.rest with oprIn := true, staIn := true } ∧ L.bi = Bus.Spec.byte (if c = 13 then 0x0c else 0x0d) ∧
      ∃ L', Bus.Spec.accept dev L 0 = .ok L' ∧ L'.t = Bus.Spec.rest ∧ Spec.Ready L'.s ∧ L'.s.t.inFlg = false ∧ pending L'.s.t = [] ∧ L'.s.addr = s.addr ∧ L'.s.t.sent = s.t.sent := by
  let t1 : T := if c = 13 then { s.t with eob := true, outCr := true } else { s.t with cancel := true }
  have g1 : packet s.t [c] = .ok t1 := by
    rcases hc with rfl | rfl <;>
    simp [packet, h.cons, packetLoop, h.len, telnet, h.tns, pushChar, h.flag, Res.bind, t1]
  have g3 : func t1 0 = (t1, if c = 13 then 0x30 else 0x90, true) := by
    rcases hc with rfl | rfl <;>
    simp [func, t1, h.cons, signals, tst, tagsOut, h.home, h.attn, h.len, h.cancel, h.eob]
  let s1 : S := { s with t := t1 }
  let s2 : S := { s with evs := s.evs.erase .poll ++ [.poll], t := if c = 13 then t1 else { t1 with outCr := true }, dataEnd := true, cmdDone := true, request := true, status := if c = 13 then 0 else sUnitExp }
  have p1 : Spec.act ⟨s, Bus.Spec.rest, bi⟩ (.packet [c]) = .ok ⟨s1, Bus.Spec.rest, bi⟩ := act_ok (by simp [dstep, g1, Res.bind, s1])
  have p2 : Spec.act ⟨s1, Bus.Spec.rest, bi⟩ (.fire .poll) = .ok ⟨s2, Bus.Spec.rest, bi⟩ := by
    refine act_ok ?_
    have k2 : tst (0x30 : Nat) 0x40 = false := rfl
    have k2' : tst (0x90 : Nat) 0x40 = false := rfl
    have k3 : tst (0x30 : Nat) 0xa0 = true := rfl
    have k3' : tst (0x90 : Nat) 0xa0 = true := rfl
    have k4 : tst (0x30 : Nat) 2 = false := rfl
    have k4' : tst (0x90 : Nat) 2 = false := rfl
    have k5 : tst (0x30 : Nat) 0x80 = false := rfl
    have k5' : tst (0x90 : Nat) 0x80 = true := rfl
    simp only [dstep, s1, if_pos h.poll, pollCb, g3]
    rcases hc with rfl | rfl
    · simp [k2, Res.bind, pollEnd, k3, k4, k5, addEv, s2, h.status]
    · simp [k2', Res.bind, pollEnd, k3', k4', k5', addEv, s2, h.status]
  have ha : s2.t.attn = false := by rcases hc with rfl | rfl <;> exact h.attn
  have hs : s2.status < 256 := by show (if c = 13 then 0 else sUnitExp) < 256; split <;> decide
  have hb : s2.status ||| (sChnEnd ||| sDevEnd) = if c = 13 then 0x0c else 0x0d := by
    show (if c = 13 then 0 else sUnitExp) ||| (sChnEnd ||| sDevEnd) = _
    rcases hc with rfl | rfl <;> rfl
  have p3 := serve_end s2 bi h.st rfl h.busy rfl rfl hs ha
  have hf : func s2.t 1 = ({ clear s2.t with attn := s2.t.attn }, 0x10, tst 0x10 0xef) := by
    rcases hc with rfl | rfl <;> simp [s2, t1, func, h.cons, signals, tst, clear, tagsOut, h.attn]
  refine ⟨_, _, bind_ok p1 (bind_ok p2 p3), rfl, rfl, ?_, ?_⟩
  · show Bus.Spec.byte (s2.status ||| (sChnEnd ||| sDevEnd)) = _
    rw [hb]
  · refine ⟨_, accept_done { s2 with selected := true, request := false, st := .statusAccept, status := s2.status ||| (sChnEnd ||| sDevEnd), t := (func s2.t 1).1 } false rfl (or8 hs ce_de) (Or.inl rfl), rfl, ?_, ?_, ?_, rfl, ?_⟩
    · refine ⟨⟨rfl, rfl, rfl, rfl, ?_⟩, ?_, ?_, ?_, by simp [s2]⟩
      · rw [hf]; exact ha
      · rw [hf]; rcases hc with rfl | rfl <;> exact h.cons
      · rw [hf]; rcases hc with rfl | rfl <;> exact h.tns
      · rw [hf]; rcases hc with rfl | rfl <;> exact h.lt
    · rw [hf]; rfl
    · rw [hf]; simp [pending, clear]
    · rw [hf]; rcases hc with rfl | rfl <;> rfl

/-! ## C83 -/

/-- A read command is started and the channel disconnects. -/
theorem start_read (s : S) (bi : Nat) (h : Spec.Ready s) :
    ∃ L, Bus.Spec.initialSelection dev ⟨s, Bus.Spec.rest, bi⟩ (s.addr % 256) 0x0a false = .ok L ∧ L.bi = Bus.Spec.byte 0 ∧
      ∃ s' bi', Bus.Spec.accept dev L 0 = .ok ⟨s', Bus.Spec.rest, bi'⟩ ∧ Waiting s' ∧ s'.addr = s.addr ∧ s'.t.sent = s.t.sent := by
  have hr := h.rest
  have e : selectedWith s 0x0a = { s with st := .status, selected := true, request := false, stacked := false, cmd := 0x0a, status := 0, cmdDone := false, sense := 0, dataRdy := false, dataEnd := false, busy := true, t := { clear s.t with inFlg := true } } := by
    simp [selectedWith, deviceCmd, hr.busy, tst, signal, func, h.cons, signals]
  refine ⟨_, initialSelection_eq s bi 0x0a false hr (by decide), by rw [e], ?_⟩
  rw [e]
  let s1 : S := { s with st := .statusAccept, selected := true, request := false, stacked := false, cmd := 0x0a, status := 0, cmdDone := false, sense := 0, dataRdy := false, dataEnd := false, busy := true, t := { clear s.t with inFlg := true } }
  have a1 : dev s1 { Bus.Spec.rest with oprIn := true, staIn := true, srv := true } 0 (Bus.Spec.byte 0) = .ok ({ s1 with st := .opr }, { Bus.Spec.rest with oprIn := true, srv := true }, Bus.Spec.byte 0) := by
    simp [dev, s1, Bus.Spec.rest, statusAccept, statusAccepted, withPar_ok 0 (by decide), Res.bind]
  have a2 : dev { s1 with st := .opr } { Bus.Spec.rest with oprIn := true } 0 (Bus.Spec.byte 0) = .ok ({ s1 with st := .idle, selected := false }, Bus.Spec.rest, Bus.Spec.byte 0) := by
    simp [dev, s1, Bus.Spec.rest, opr]
  refine ⟨_, _, bind_ok (poll_ok a1) (poll_ok a2), ?_, rfl, rfl⟩
  exact ⟨rfl, rfl, rfl, rfl, rfl, rfl, rfl, rfl, h.poll, h.cons, rfl, rfl, rfl, h.ptr, rfl, hr.attn, rfl, rfl, h.tns⟩

/-- **C83**: a read command on a console at rest with a terminal connected.  The channel starts the read on a byte
multiplexor channel; the operator types any line of any length, and the channel serves each request.  The channel gets the EBCDIC code of each
character typed, in order, from the console's address; the characters are echoed to the terminal; carriage return ends the
read with channel end and device end, control C with unit exception as well; and then the console is at rest with its
keyboard locked. -/
theorem C83_read_line (s : S) (bi : Nat) (h : Spec.Ready s) (cs : List Nat) (hcs : ∀ c ∈ cs, Spec.Printing c) (last : Nat) (hl : last = 13 ∨ last = 3) :
    ∃ L0, Bus.Spec.initialSelection dev ⟨s, Bus.Spec.rest, bi⟩ (s.addr % 256) 0x0a false = .ok L0 ∧ L0.bi = Bus.Spec.byte 0 ∧
    ∃ L1, Bus.Spec.accept dev L0 0 = .ok L1 ∧ L1.t = Bus.Spec.rest ∧
    ∃ L2, Spec.keys L1 cs = .ok (L2, cs.map (fun c => (⟨true, Bus.Spec.byte (s.addr % 256)⟩, some (Spec.ebcdic c)))) ∧ L2.t = Bus.Spec.rest ∧
    ∃ L3, (Spec.act L2 (.packet [last])).bind (fun L => (Spec.act L (.fire .poll)).bind Spec.serve) = .ok (L3, ⟨true, Bus.Spec.byte (s.addr % 256)⟩) ∧
      L3.t = { Bus.Spec.rest with oprIn := true, staIn := true } ∧ L3.bi = Bus.Spec.byte (if last = 13 then 0x0c else 0x0d) ∧
    ∃ L4, Bus.Spec.accept dev L3 0 = .ok L4 ∧ L4.t = Bus.Spec.rest ∧ Spec.Ready L4.s ∧ L4.s.t.inFlg = false ∧ pending L4.s.t = [] ∧ L4.s.t.sent = s.t.sent ++ cs := by
  obtain ⟨L0, a1, a2, s1, bi1, a3, a4, a5, a6⟩ := start_read s bi h
  obtain ⟨s2, bi2, b1, b2, b3, b4⟩ := keys_printing cs s1 bi1 a4 hcs
  obtain ⟨L3, q, c1, c2, c3, c4, L4, c5, c6, c7, c8, c9, c10, c11⟩ := key_last s2 bi2 last b2 hl
  rw [a5, bytePar_eq] at b1
  rw [b3, a5, bytePar_eq] at c2
  subst c2
  exact ⟨L0, a1, a2, _, a3, rfl, _, b1, rfl, L3, c1, c3, c4, L4, c5, c6, c7, c8, c9, by rw [c11, b4, a6]⟩

/-- A console just reset, with a terminal: the hypotheses of `C83_read_line` hold, and its line can be read. -/
example : ∃ s, Spec.DReachable s ∧ Spec.Ready s ∧ (∀ c ∈ [82, 32, 49, 50], Spec.Printing c) ∧ [82, 32, 49, 50].map Spec.ebcdic = [0xd9, 0x40, 0xf1, 0xf2] :=
  ⟨_, ⟨0x1f, [.bus {} 0 0, .caller], rfl⟩, ⟨⟨rfl, rfl, rfl, rfl, rfl⟩, rfl, rfl, by decide, by decide⟩, by decide, by decide +kernel⟩

end Verif.Cons
