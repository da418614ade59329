import Verif.Cons.Line
/-!
# Writing to the 1052 (C84), and the keyboard between commands (C85)
-/
namespace Verif.Cons
open Verif.Bus
open Verif.Card (Res)

namespace Spec

/-- What the terminal gets for a byte: its ASCII code, and a line feed after a carriage return. -/
def printed (v : Nat) : List Nat := if ebcdicToAsciiTab.getD v 0 = 13 then [13, 10] else [ebcdicToAsciiTab.getD v 0]

/-- At rest and ready, with nothing left to print. -/
structure PrinterReady (s : S) : Prop extends Ready s where
  outFlg : s.t.outFlg = false
  outCr : s.t.outCr = false

/-- The channel gives one byte to a console with service in up; the console prints it, the terminal gets it, and the
channel serves the next request. -/
def put (L : Link) (v : Nat) : Res Link :=
  (Bus.Spec.accept dev L (Bus.Spec.byte v)).bind fun L =>
  (act L (.fire .send)).bind fun L =>
  (act L .flush).bind fun L =>
  (serve L).bind fun q => .ok q.1

/-- Bytes one after the other. -/
def puts (L : Link) : List Nat → Res Link
  | [] => .ok L
  | v :: vs => (put L v).bind fun L => puts L vs

/-- The channel has no more data: it answers service in by command out. -/
def stop (L : Link) : Res Link :=
  (Bus.Spec.poll dev L (fun t => { t with cmd := true }) (Bus.Spec.byte 0)).bind fun L =>
  (Bus.Spec.poll dev L (fun t => { t with cmd := false }) 0).bind fun L =>
  Bus.Spec.poll dev L id 0

/-- The tags while a byte is asked for or offered. -/
def service : Tags := { Bus.Spec.rest with oprIn := true, srvIn := true }

end Spec

/-- A write is in progress and service in is up. -/
structure Offering (cmd : Nat) (s : S) : Prop where
  st : s.st = .data2
  busy : s.busy = true
  cmd : s.cmd = cmd
  dataEnd : s.dataEnd = false
  cmdDone : s.cmdDone = false
  request : s.request = false
  stacked : s.stacked = false
  status : s.status = 0
  data : s.data < 256
  poll : .poll ∈ s.evs
  cons : s.t.cons = true
  home : s.t.home = true
  flag : s.t.inFlg = false
  outFlg : s.t.outFlg = false
  outCr : s.t.outCr = false
  len : s.t.inLen = 0
  lt : s.t.inPtr < 256
  attn : s.t.attn = false
  cancel : s.t.cancel = false
  eob : s.t.eob = false
  tns : s.t.tns = .norm

theorem ascii_tab (v : Nat) (h : v < 256) : Xlat.ebcdicToAscii v = some (ebcdicToAsciiTab.getD v 0) := by
  have key : ∀ v : Fin 256, Xlat.ebcdicToAscii v = some (ebcdicToAsciiTab.getD v.val 0) := by decide +kernel
  exact key ⟨v, h⟩

/-- A write command is started: service in comes up. -/
theorem start_write (s : S) (bi cmd : Nat) (hc : cmd = 1 ∨ cmd = 9) (h : Spec.PrinterReady s) (hd : s.data < 256) :
    ∃ L, Bus.Spec.initialSelection dev ⟨s, Bus.Spec.rest, bi⟩ (s.addr % 256) cmd false = .ok L ∧ L.bi = Bus.Spec.byte 0 ∧
      ∃ L1 s' bi', Bus.Spec.accept dev L 0 = .ok L1 ∧ Bus.Spec.poll dev L1 id 0 = .ok ⟨s', Spec.service, bi'⟩ ∧ Offering cmd s' ∧ s'.addr = s.addr ∧ s'.t.sent = s.t.sent := by
  have hr := h.rest
  have e : selectedWith s cmd = { s with st := .status, selected := true, request := false, stacked := false, cmd := cmd, status := 0, cmdDone := false, sense := 0, dataRdy := true, dataEnd := false, busy := true, t := { clear s.t with home := true } } := by
    rcases hc with rfl | rfl <;>
    simp [selectedWith, deviceCmd, hr.busy, tst, signal, func, h.cons, signals]
  refine ⟨_, initialSelection_eq s bi cmd false hr (by omega), by rw [e], ?_⟩
  rw [e]
  let s1 : S := { s with st := .statusAccept, selected := true, request := false, stacked := false, cmd := cmd, status := 0, cmdDone := false, sense := 0, dataRdy := true, dataEnd := false, busy := true, t := { clear s.t with home := true } }
  have a1 : dev s1 { Bus.Spec.rest with oprIn := true, staIn := true, srv := true } 0 (Bus.Spec.byte 0) = .ok ({ s1 with st := .opr }, { Bus.Spec.rest with oprIn := true, srv := true }, Bus.Spec.byte 0) := by
    have : cmd ≠ 0 := by omega
    simp [dev, s1, Bus.Spec.rest, statusAccept, statusAccepted, withPar_ok 0 (by decide), Res.bind, this]
  have a2 : dev { s1 with st := .opr } { Bus.Spec.rest with oprIn := true } 0 (Bus.Spec.byte 0) = .ok ({ s1 with st := .data1 }, { Bus.Spec.rest with oprIn := true }, Bus.Spec.byte 0) := by
    simp [dev, s1, Bus.Spec.rest, opr]
  have a3 : dev { s1 with st := .data1 } { Bus.Spec.rest with oprIn := true } 0 (Bus.Spec.byte 0) = .ok ({ s1 with st := .data2 }, Spec.service, Bus.Spec.byte s.data) := by
    simp [dev, s1, Bus.Spec.rest, Spec.service, data1, withPar_ok _ hd, Res.bind]
  refine ⟨_, _, _, bind_ok (poll_ok a1) (poll_ok a2), poll_ok a3, ?_, rfl, rfl⟩
  exact ⟨rfl, rfl, rfl, rfl, rfl, rfl, rfl, rfl, hd, h.poll, h.cons, rfl, rfl, h.outFlg, h.outCr, rfl, h.ptr, hr.attn, rfl, rfl, h.tns⟩

/-- The console before it serves the next request. -/
theorem put_head (s : S) (bi cmd v : Nat) (hc : cmd = 1 ∨ cmd = 9) (h : Offering cmd s) (hv : v < 256) :
    ∃ s', (∀ r, Spec.serve ⟨s', Bus.Spec.rest, Bus.Spec.byte s.data⟩ = r → Spec.put ⟨s, Spec.service, bi⟩ v = r.bind (fun q => .ok q.1)) ∧
      s'.st = .idle ∧ s'.request = true ∧ s'.data = Bus.Spec.byte v ∧ s'.addr = s.addr ∧ s'.t.sent = s.t.sent ++ Spec.printed v ∧
      (Bus.Spec.byte v < 256 → Offering cmd { s' with selected := true, request := false, st := .data2 }) ∧ s'.busy = true ∧ s'.dataEnd = false := by
  have w : withPar s.data = .ok (Bus.Spec.byte s.data) := withPar_ok _ h.data
  have k1 : tst cmd 1 = true := by rcases hc with rfl | rfl <;> rfl
  let s1 : S := { s with dataRdy := false, data := Bus.Spec.byte v, evs := s.evs ++ [.send], st := .opr }
  have a1 : dev s { Spec.service with srv := true } (Bus.Spec.byte v) bi = .ok (s1, { Bus.Spec.rest with oprIn := true, srv := true }, Bus.Spec.byte s.data) := by
    unfold dev
    rw [if_neg (by simp [Spec.service, Bus.Spec.rest]), h.st]
    simp only [data2]
    rw [w]
    simp [s1, Bus.Spec.rest, Spec.service, Res.bind, h.cmd, k1, takeByte, parBad_byte v hv, addEv]
  let s2 : S := { s1 with selected := false, st := .idle, request := false }
  have a2 : dev s1 { Bus.Spec.rest with oprIn := true } 0 (Bus.Spec.byte s.data) = .ok (s2, Bus.Spec.rest, Bus.Spec.byte s.data) := by
    simp [dev, s1, s2, Bus.Spec.rest, opr, h.dataEnd, h.cmdDone]
  let t3 : T := { s.t with outBuf := ebcdicToAsciiTab.getD v 0, outFlg := true }
  let s3 : S := { s2 with t := t3, dataRdy := true, request := true, evs := (s.evs ++ [Cb.send]).erase Cb.send }
  have g : func s.t 0 = (s.t, 0x50, true) := by
    have q : tagsOut s.t = 0x50 := by simp [tagsOut, h.home, h.outFlg, h.outCr, h.len, h.attn, h.cancel, h.eob]
    have q2 : signals s.t 0 = s.t := by simp [signals, tst]
    unfold func
    rw [if_neg (by simp [h.cons])]
    simp only [q2, q]
    rfl
  have a3 : Spec.act ⟨s2, Bus.Spec.rest, Bus.Spec.byte s.data⟩ (.fire .send) = .ok ⟨s3, Bus.Spec.rest, Bus.Spec.byte s.data⟩ := by
    refine act_ok ?_
    have k2 : tst (0x50 : Nat) 0x40 = true := rfl
    have hm : Cb.send ∈ s2.evs := by simp [s2, s1]
    have ho : out s.t (Bus.Spec.byte v) = .ok t3 := by
      unfold out
      rw [byte_mod _ hv, ascii_tab _ hv]
      rfl
    simp only [dstep, if_pos hm, sendCb]
    simp only [s2, s1, g, h.cmd, k1, k2, and_self, if_true, ho, Res.bind]
    simp [s3, s2, s1, h.cmd]
  let s4 : S := { s3 with t := { t3 with outFlg := false, sent := s.t.sent ++ Spec.printed v } }
  have a4 : Spec.act ⟨s3, Bus.Spec.rest, Bus.Spec.byte s.data⟩ .flush = .ok ⟨s4, Bus.Spec.rest, Bus.Spec.byte s.data⟩ := by
    refine act_ok ?_
    have hp : (if ebcdicToAsciiTab.getD v 0 = 13 then [ebcdicToAsciiTab.getD v 0, 10] else [ebcdicToAsciiTab.getD v 0]) = Spec.printed v := by
      unfold Spec.printed
      split
      · next q => rw [q]
      · rfl
    simp only [dstep, flush, s3, t3, if_true, hp, h.outCr]
    simp [s4, s3, t3, h.outCr]
  refine ⟨s4, ?_, rfl, rfl, rfl, rfl, rfl, ?_, h.busy, h.dataEnd⟩
  · intro r hr
    exact bind_ok (bind_ok (poll_ok a1) (poll_ok a2)) (bind_ok a3 (bind_ok a4 (by rw [hr])))
  · intro hb
    refine ⟨rfl, h.busy, h.cmd, h.dataEnd, h.cmdDone, rfl, h.stacked, h.status, hb, ?_, h.cons, h.home, h.flag, rfl, h.outCr, h.len, h.lt, h.attn, h.cancel, h.eob, h.tns⟩
    show Cb.poll ∈ (s.evs ++ [Cb.send]).erase Cb.send
    rw [List.mem_erase_of_ne (by decide)]
    exact List.mem_append_left _ h.poll

theorem put_odd (s : S) (bi cmd v : Nat) (hc : cmd = 1 ∨ cmd = 9) (h : Offering cmd s) (hv : Bus.Spec.byte v < 256) :
    ∃ s' bi', Spec.put ⟨s, Spec.service, bi⟩ v = .ok ⟨s', Spec.service, bi'⟩ ∧ Offering cmd s' ∧ s'.addr = s.addr ∧ s'.t.sent = s.t.sent ++ Spec.printed v := by
  have hv' : v < 256 := Nat.lt_of_le_of_lt (by unfold Bus.Spec.byte; omega) hv
  obtain ⟨s1, a1, a2, a3, a4, a5, a6, a7, a8, a9⟩ := put_head s bi cmd v hc h hv'
  exact ⟨_, _, a1 _ (serve_data s1 _ a2 a3 a8 a9 (by rw [a4]; exact hv)), a7 hv, a5, a6⟩

theorem puts_odd (vs : List Nat) (cmd : Nat) (hc : cmd = 1 ∨ cmd = 9) : ∀ (s : S) (bi : Nat), Offering cmd s → (∀ v ∈ vs, Bus.Spec.byte v < 256) →
    ∃ s' bi', Spec.puts ⟨s, Spec.service, bi⟩ vs = .ok ⟨s', Spec.service, bi'⟩ ∧ Offering cmd s' ∧ s'.addr = s.addr ∧ s'.t.sent = s.t.sent ++ vs.flatMap Spec.printed := by
  induction vs with
  | nil => intro s bi h _; exact ⟨s, bi, rfl, h, rfl, by simp⟩
  | cons v vs ih =>
    intro s bi h hv
    obtain ⟨s1, b1, a1, a2, a3, a4⟩ := put_odd s bi cmd v hc h (hv v List.mem_cons_self)
    obtain ⟨s2, b2, c1, c2, c3, c4⟩ := ih s1 b1 a2 (fun v h => hv v (List.mem_cons_of_mem _ h))
    refine ⟨s2, b2, bind_ok a1 c1, c2, c3.trans a3, ?_⟩
    rw [c4, a4]; simp

/-- The end of a write. -/
theorem stop_write (s : S) (bi cmd : Nat) (hc : cmd = 1 ∨ cmd = 9) (h : Offering cmd s) :
    ∃ L, Spec.stop ⟨s, Spec.service, bi⟩ = .ok L ∧ L.t = { Bus.Spec.rest with oprIn := true, staIn := true } ∧ L.bi = Bus.Spec.byte 0x0c ∧
      ∃ L', Bus.Spec.accept dev L 0 = .ok L' ∧ L'.t = Bus.Spec.rest ∧ Spec.Ready L'.s ∧ L'.s.t.inFlg = false ∧ L'.s.t.outFlg = false ∧ L'.s.t.outCr = decide (cmd = 9) ∧ L'.s.addr = s.addr ∧ L'.s.t.sent = s.t.sent := by
  have w : withPar s.data = .ok (Bus.Spec.byte s.data) := withPar_ok _ h.data
  have a1 : dev s { Spec.service with cmd := true } (Bus.Spec.byte 0) bi = .ok ({ s with dataRdy := false, dataEnd := true, cmdDone := true, st := .opr }, { Bus.Spec.rest with oprIn := true, cmd := true }, Bus.Spec.byte s.data) := by
    unfold dev
    rw [if_neg (by simp [Spec.service, Bus.Spec.rest]), h.st]
    simp only [data2]
    rw [w]
    simp [Bus.Spec.rest, Spec.service, Res.bind]
  let t2 : T := { clear s.t with outCr := decide (cmd = 9) }
  let s2 : S := { s with dataRdy := false, dataEnd := true, cmdDone := true, st := .endStatus, status := 0x0c, t := t2 }
  have a2 : dev { s with dataRdy := false, dataEnd := true, cmdDone := true, st := .opr } { Bus.Spec.rest with oprIn := true } 0 (Bus.Spec.byte s.data) = .ok (s2, { Bus.Spec.rest with oprIn := true }, Bus.Spec.byte s.data) := by
    rcases hc with rfl | rfl
    · simp [dev, Bus.Spec.rest, opr, endSignal, h.cmd, signal, func, h.cons, signals, tst, h.status, s2, t2, clear, h.outCr, h.request]
      decide
    · simp [dev, Bus.Spec.rest, opr, endSignal, h.cmd, signal, func, h.cons, signals, tst, h.status, s2, t2, clear, h.request]
      decide
  have a3 : dev s2 { Bus.Spec.rest with oprIn := true } 0 (Bus.Spec.byte s.data) = .ok ({ s2 with st := .endAccept }, { Bus.Spec.rest with oprIn := true, staIn := true }, Bus.Spec.byte 0x0c) := by
    simp [dev, s2, Bus.Spec.rest, endStatus, withPar_ok 0x0c (by decide), Res.bind]
  refine ⟨_, bind_ok (poll_ok a1) (bind_ok (poll_ok a2) (poll_ok a3)), rfl, rfl, ?_⟩
  let s4 : S := { s2 with st := .statusWait, status := 0, stacked := false, cmd := 0, cmdDone := false, busy := false }
  have a4 : dev { s2 with st := .endAccept } { Bus.Spec.rest with oprIn := true, staIn := true, srv := true } 0 (Bus.Spec.byte 0x0c) = .ok (s4, { Bus.Spec.rest with srv := true }, Bus.Spec.byte 0x0c) := by
    simp [dev, s2, s4, Bus.Spec.rest, endAccept, endAccepted, withPar_ok 0x0c (by decide), Res.bind]
  have a5 : dev s4 Bus.Spec.rest 0 (Bus.Spec.byte 0x0c) = .ok ({ s4 with selected := false, st := .idle }, Bus.Spec.rest, Bus.Spec.byte 0x0c) := by
    simp [dev, s4, Bus.Spec.rest, statusWait]
  refine ⟨_, bind_ok (poll_ok a4) (poll_ok a5), rfl, ⟨⟨rfl, rfl, rfl, rfl, h.attn⟩, h.cons, h.tns, h.lt, h.poll⟩, rfl, h.outFlg, rfl, rfl, rfl⟩

/-! ## C84 -/

theorem bind_oob {α β : Type} {x : Res α} {f : α → Res β} (h : x = .oob) : x.bind f = .oob := by rw [h]; rfl

theorem poll_oob {L : Spec.Link} {f : Tags → Tags} {bo : Nat} (h : dev L.s (f L.t) bo L.bi = .oob) : Bus.Spec.poll dev L f bo = .oob := bind_oob h

/-- **C84** (part): a write command (or write with carrier return) of any number of bytes whose eight bits have odd weight,
on a console at rest with a terminal and nothing left to print.  Each byte is asked for by service in; the terminal gets the
ASCII codes of the bytes in order; the command ends with channel end and device end when the channel stops it, the keyboard is
locked, and a carrier return is printed exactly for the command that asks for it.  Missing: the other bytes, see
`C84_violated_parity_bit`. -/
theorem C84_write_line_partial (s : S) (bi cmd : Nat) (hc : cmd = 1 ∨ cmd = 9) (h : Spec.PrinterReady s) (hd : s.data < 256) (vs : List Nat) (hv : ∀ v ∈ vs, v < 256 ∧ Xlat.ones 8 v % 2 = 1) :
    ∃ L0, Bus.Spec.initialSelection dev ⟨s, Bus.Spec.rest, bi⟩ (s.addr % 256) cmd false = .ok L0 ∧ L0.bi = Bus.Spec.byte 0 ∧
    ∃ L1 L2, Bus.Spec.accept dev L0 0 = .ok L1 ∧ Bus.Spec.poll dev L1 id 0 = .ok L2 ∧ L2.t = Spec.service ∧
    ∃ L3, Spec.puts L2 vs = .ok L3 ∧ L3.t = Spec.service ∧ L3.s.t.sent = s.t.sent ++ vs.flatMap Spec.printed ∧
    ∃ L4, Spec.stop L3 = .ok L4 ∧ L4.t = { Bus.Spec.rest with oprIn := true, staIn := true } ∧ L4.bi = Bus.Spec.byte 0x0c ∧
    ∃ L5, Bus.Spec.accept dev L4 0 = .ok L5 ∧ L5.t = Bus.Spec.rest ∧ Spec.Ready L5.s ∧ L5.s.t.inFlg = false ∧
    ∃ L6, Spec.act L5 .flush = .ok L6 ∧ Spec.PrinterReady L6.s ∧ L6.s.t.sent = s.t.sent ++ vs.flatMap Spec.printed ++ (if cmd = 9 then [13, 10] else []) := by
  obtain ⟨L0, a1, a2, L1, s2, b2, a3, a4, a5, a6, a7⟩ := start_write s bi cmd hc h hd
  have hv' : ∀ v ∈ vs, Bus.Spec.byte v < 256 := by
    intro v hm
    obtain ⟨h1, h2⟩ := hv v hm
    unfold Bus.Spec.byte
    rw [if_neg (by omega)]
    exact h1
  obtain ⟨s3, b3, c1, c2, c3, c4⟩ := puts_odd vs cmd hc s2 b2 a5 hv'
  obtain ⟨L4, d1, d2, d3, L5, d4, d5, d6, d7, d8, d9, d10, d11⟩ := stop_write s3 b3 cmd hc c2
  refine ⟨L0, a1, a2, L1, _, a3, a4, rfl, _, c1, rfl, by rw [c4, a7], L4, d1, d2, d3, L5, d4, d5, d6, d7, ⟨{ L5.s with t := flush L5.s.t }, L5.t, L5.bi⟩, act_ok rfl, ?_, ?_⟩
  · have e : flush L5.s.t = { L5.s.t with outCr := false, sent := L5.s.t.sent ++ (if cmd = 9 then [13, 10] else []) } := by
      cases hq : L5.s.t
      rw [hq] at d8 d9
      simp only at d8 d9
      rcases hc with rfl | rfl <;> simp [flush, d8, d9]
    refine ⟨⟨⟨d6.rest.st, d6.rest.busy, d6.rest.stacked, d6.rest.status, ?_⟩, ?_, ?_, ?_, d6.poll⟩, ?_, ?_⟩
    · rw [e]; exact d6.rest.attn
    · rw [e]; exact d6.cons
    · rw [e]; exact d6.tns
    · rw [e]; exact d6.ptr
    · rw [e]; exact d8
    · rw [e]
  · have e : (flush L5.s.t).sent = L5.s.t.sent ++ (if cmd = 9 then [13, 10] else []) := by
      rcases hc with rfl | rfl <;> simp [flush, d8, d9]
    show (flush L5.s.t).sent = _
    rw [e, d11, c4, a7]

/-- "A1" and "1" have bytes of odd weight; such a console is reached. -/
example : ∃ s, Spec.DReachable s ∧ Spec.PrinterReady s ∧ s.data < 256 ∧ (∀ v ∈ [0xf1, 0x40, 0xc1], v < 256 ∧ Xlat.ones 8 v % 2 = 1) ∧ [0xf1, 0x40, 0xc1].flatMap Spec.printed = [49, 32, 65] :=
  ⟨_, ⟨0x1f, [.bus {} 0 0, .caller], rfl⟩, ⟨⟨⟨rfl, rfl, rfl, rfl, rfl⟩, rfl, rfl, by decide, by decide⟩, rfl, rfl⟩, by decide, by decide +kernel, by decide +kernel⟩

/-- **C84** and **C80**, violated: for every byte whose eight bits have even weight, after it was taken the console looks at its parity
table outside of it when it is asked for the next byte. -/
theorem C84_violated_parity_bit (s : S) (bi cmd v : Nat) (hc : cmd = 1 ∨ cmd = 9) (h : Offering cmd s) (hv : v < 256) (hp : Xlat.ones 8 v % 2 = 0) :
    Spec.put ⟨s, Spec.service, bi⟩ v = .oob := by
  obtain ⟨s1, a1, a2, a3, a4, a5, a6, a7, a8, a9⟩ := put_head s bi cmd v hc h hv
  refine (a1 .oob ?_).trans rfl
  have hb : 256 ≤ s1.data := by rw [a4]; unfold Bus.Spec.byte; rw [if_pos hp]; omega
  have p1 : dev s1 Bus.Spec.rest 0 (Bus.Spec.byte s.data) = .ok (s1, { Bus.Spec.rest with reqIn := true }, Bus.Spec.byte s.data) := by
    unfold dev
    rw [if_neg (by simp [Bus.Spec.rest]), a2]
    simp [idle, Bus.Spec.rest, a3]
  have p2 : dev s1 { Bus.Spec.rest with reqIn := true, sel := true } 0 (Bus.Spec.byte s.data) = .ok ({ s1 with selected := true, st := .initSel }, { Bus.Spec.rest with oprIn := true }, bytePar s1.addr) := by
    unfold dev
    rw [if_neg (by simp [Bus.Spec.rest]), a2]
    simp [idle, Bus.Spec.rest, a3]
  have p3 : dev { s1 with selected := true, st := .initSel } { Bus.Spec.rest with oprIn := true } 0 (bytePar s1.addr) =
      .ok ({ s1 with selected := true, st := .command }, { Bus.Spec.rest with oprIn := true, adrIn := true }, bytePar s1.addr) := rfl
  have p4 : dev { s1 with selected := true, st := .command } { Bus.Spec.rest with cmd := true, oprIn := true, adrIn := true } (Bus.Spec.byte 0) (bytePar s1.addr) =
      .ok ({ s1 with selected := true, st := .data1, request := false }, { Bus.Spec.rest with cmd := true, oprIn := true }, bytePar s1.addr) := by
    simp [dev, Bus.Spec.rest, command, commandOut, parBad_byte 0 (by decide), a8, a9]
  have p5 : dev { s1 with selected := true, st := .data1, request := false } { Bus.Spec.rest with oprIn := true } 0 (bytePar s1.addr) = .oob := by
    simp [dev, Bus.Spec.rest, data1, withPar_oob _ hb, Res.bind]
  refine bind_ok (poll_ok p1) (bind_ok (poll_ok p2) (bind_ok (poll_ok p3) (bind_ok (poll_ok p4) ?_)))
  exact bind_oob (poll_oob p5)

/-! ## C85, C50: what goes wrong between characters -/

/-- The console looks at its keyboard and finds a character. -/
theorem poll_char (s : S) (h1 : s.t.cons = true) (h2 : s.t.inFlg = true) (h3 : 0 < s.t.inLen) (h4 : s.t.outPtr < 256) (h5 : s.t.attn = false) (h6 : s.cmd = 10) (h7 : .poll ∈ s.evs)
    (c : Nat) (hc : c < 128) (hk : s.t.key s.t.outPtr = c) :
    dstep s (.fire .poll) = .ok { s with evs := s.evs.erase .poll ++ [.poll], t := { s.t with outPtr := (s.t.outPtr + 1) % 256, inLen := s.t.inLen - 1 }, data := asciiToEbcdicTab.getD c 0, dataRdy := true, request := true } := by
  obtain ⟨e1, e2⟩ := ebcdic_lt c hc
  have hm : c % 256 = c := Nat.mod_eq_of_lt (by omega)
  have g2 : inp s.t = .ok ({ s.t with outPtr := (s.t.outPtr + 1) % 256, inLen := s.t.inLen - 1 }, some (Spec.ebcdic c)) := by
    unfold inp
    rw [if_pos ⟨h2, h3⟩, if_pos h4, hk, hm, e1]
    simp only [Card.look, Res.bind]
    rw [withPar_ok _ e2]
    rfl
  have g3 : func s.t 0 = (s.t, 0x50, true) := by
    have q : tagsOut s.t = 0x50 := by
      unfold tagsOut
      simp only [if_pos h3, h5]
      rw [if_neg (by decide)]
      split <;> rfl
    have q2 : signals s.t 0 = s.t := by simp [signals, tst]
    unfold func
    rw [if_neg (by simp [h1])]
    simp only [q2, q]
    rfl
  have hb : Spec.ebcdic c % 256 = asciiToEbcdicTab.getD c 0 := byte_mod _ e2
  have k1 : tst (10 : Nat) 1 = false := rfl
  have k2 : tst (0x50 : Nat) 0x40 = true := rfl
  have k3 : tst (0x50 : Nat) 0xa0 = false := rfl
  have k4 : tst (0x50 : Nat) 2 = false := rfl
  simp only [dstep, if_pos h7, pollCb, g3, h6, k1, k2, and_self, if_true, g2, Res.bind, Option.getD, hb, pollEnd, k3, k4, addEv]
  simp [h6]

/-- **C50**, violated: two characters are typed and the console looks at its keyboard twice before the channel serves it:
the channel gets the second one only, whatever the two are, and the keyboard buffer is empty. -/
theorem C50_violated_slow_channel (s : S) (bi c1 c2 : Nat) (h : Waiting s) (h1 : Spec.Printing c1) (h2 : Spec.Printing c2) :
    ∃ L, (Spec.act ⟨s, Bus.Spec.rest, bi⟩ (.packet [c1, c2])).bind (fun L => (Spec.act L (.fire .poll)).bind (fun L => (Spec.act L (.fire .poll)).bind Spec.serve)) = .ok (L, ⟨true, bytePar s.addr⟩) ∧
      L.t = Spec.service ∧ L.bi = Spec.ebcdic c2 ∧ pending L.s.t = [] := by
  obtain ⟨a1, a3, a12, a13, a27⟩ := h1
  obtain ⟨b1, b3, b12, b13, b27⟩ := h2
  obtain ⟨e1, e2⟩ := ebcdic_lt c2 b1
  let t1 : T := { s.t with key := fun i => if i = (s.t.inPtr + 1) % 256 then c2 else if i = s.t.inPtr then c1 else s.t.key i, inPtr := ((s.t.inPtr + 1) % 256 + 1) % 256, inLen := 2, sent := s.t.sent ++ [c1] ++ [c2] }
  have g1 : packet s.t [c1, c2] = .ok t1 := by
    have c255 : c1 ≠ 255 := by omega
    have d255 : c2 ≠ 255 := by omega
    have hl : (s.t.inPtr + 1) % 256 < 256 := Nat.mod_lt _ (by decide)
    simp [packet, h.cons, packetLoop, h.len, telnet, h.tns, c255, d255, pushChar, a12, a27, a3, a13, b12, b27, b3, b13, h.flag, h.lt, hl, Res.bind, t1]
  have hne : s.t.inPtr ≠ (s.t.inPtr + 1) % 256 := by have := h.lt; omega
  have p1 : dstep s (.packet [c1, c2]) = .ok { s with t := t1 } := by simp [dstep, g1, Res.bind]
  have p2 := poll_char { s with t := t1 } h.cons h.flag (by simp [t1]) (by simp [t1, ← h.ptr, h.lt]) h.attn h.cmd h.poll c1 a1 (by simp [t1, ← h.ptr, hne])
  let s2 : S := { s with evs := s.evs.erase .poll ++ [.poll], t := { t1 with outPtr := (s.t.outPtr + 1) % 256, inLen := 1 }, data := asciiToEbcdicTab.getD c1 0, dataRdy := true, request := true }
  have p3 := poll_char s2 h.cons h.flag (by simp [s2]) (Nat.mod_lt _ (by decide)) h.attn h.cmd (by simp [s2]) c2 b1 (by simp [s2, t1, h.ptr])
  let s3 : S := { s2 with evs := s2.evs.erase .poll ++ [.poll], t := { s2.t with outPtr := (s2.t.outPtr + 1) % 256, inLen := 0 }, data := asciiToEbcdicTab.getD c2 0, dataRdy := true, request := true }
  have p4 := serve_data s3 bi h.st rfl h.busy h.dataEnd e2
  refine ⟨_, bind_ok (act_ok p1) (bind_ok (act_ok p2) (bind_ok (act_ok p3) p4)), rfl, rfl, ?_⟩
  simp [pending, s3]

/-- **C85**, violated: the channel stops a read after any character (its count is used up).  The command ends with channel
end and device end, the console is at rest, and its keyboard is not locked: what is typed then is echoed. -/
theorem C85_violated_count (s : S) (bi c c2 : Nat) (h : Waiting s) (hc : Spec.Printing c) (hc2 : Spec.Printing c2) :
    ∃ L, (Spec.act ⟨s, Bus.Spec.rest, bi⟩ (.packet [c])).bind (fun L => (Spec.act L (.fire .poll)).bind (fun L => (Spec.serve L).bind (fun q => Spec.stop q.1))) = .ok L ∧
      L.t = { Bus.Spec.rest with oprIn := true, staIn := true } ∧ L.bi = Bus.Spec.byte 0x0c ∧
      ∃ L', Bus.Spec.accept dev L 0 = .ok L' ∧ L'.t = Bus.Spec.rest ∧ Spec.Ready L'.s ∧ L'.s.t.inFlg = true ∧
        ∃ L'', Spec.act L' (.packet [c2]) = .ok L'' ∧ L''.s.t.sent = s.t.sent ++ [c, c2] := by
  obtain ⟨c1, c3, c12, c13, c27⟩ := hc
  obtain ⟨b1, b3, b12, b13, b27⟩ := hc2
  obtain ⟨e1, e2⟩ := ebcdic_lt c c1
  let t1 : T := { s.t with key := fun i => if i = s.t.inPtr then c else s.t.key i, inPtr := (s.t.inPtr + 1) % 256, inLen := 1, sent := s.t.sent ++ [c] }
  have g1 : packet s.t [c] = .ok t1 := by
    have c255 : c ≠ 255 := by omega
    simp [packet, h.cons, packetLoop, h.len, telnet, h.tns, c255, pushChar, c12, c27, c3, c13, h.flag, h.lt, Res.bind, t1]
  have p1 : dstep s (.packet [c]) = .ok { s with t := t1 } := by simp [dstep, g1, Res.bind]
  have p2 := poll_char { s with t := t1 } h.cons h.flag (by simp [t1]) (by simp [t1, ← h.ptr, h.lt]) h.attn h.cmd h.poll c c1 (by simp [t1, ← h.ptr])
  let t2 : T := { t1 with outPtr := (s.t.outPtr + 1) % 256, inLen := 0 }
  let s2 : S := { s with evs := s.evs.erase .poll ++ [.poll], t := t2, data := asciiToEbcdicTab.getD c 0, dataRdy := true, request := true }
  have p3 := serve_data s2 bi h.st rfl h.busy h.dataEnd e2
  let s3 : S := { s2 with selected := true, request := false, st := .data2 }
  have q1 : dev s3 { Spec.service with cmd := true } (Bus.Spec.byte 0) (Spec.ebcdic c) = .ok ({ s3 with dataRdy := false, dataEnd := true, cmdDone := true, st := .opr }, { Bus.Spec.rest with oprIn := true, cmd := true }, Spec.ebcdic c) := by
    have w : withPar s3.data = .ok (Spec.ebcdic c) := withPar_ok _ e2
    show data2 s3 _ _ = _
    unfold data2
    rw [w]
    simp [Bus.Spec.rest, Spec.service, Res.bind]
  let s4 : S := { s3 with dataRdy := false, dataEnd := true, cmdDone := true, st := .endStatus, status := 0x0c }
  have ht : (func t2 0x50).1 = t2 := by
    simp [func, t2, t1, h.cons, signals, tst, h.flag]
  have q2 : dev { s3 with dataRdy := false, dataEnd := true, cmdDone := true, st := .opr } { Bus.Spec.rest with oprIn := true } 0 (Spec.ebcdic c) = .ok (s4, { Bus.Spec.rest with oprIn := true }, Spec.ebcdic c) := by
    have hs : (0 : Nat) ||| (sChnEnd ||| sDevEnd) = 0x0c := by decide
    simp [dev, s3, s2, Bus.Spec.rest, opr, endSignal, h.cmd, signal, ht, h.status, s4, hs]
  have q3 : dev s4 { Bus.Spec.rest with oprIn := true } 0 (Spec.ebcdic c) = .ok ({ s4 with st := .endAccept }, { Bus.Spec.rest with oprIn := true, staIn := true }, Bus.Spec.byte 0x0c) := by
    simp [dev, s4, Bus.Spec.rest, endStatus, withPar_ok 0x0c (by decide), Res.bind]
  let s5 : S := { s4 with st := .statusWait, status := 0, stacked := false, cmd := 0, cmdDone := false, busy := false }
  have q4 : dev { s4 with st := .endAccept } { Bus.Spec.rest with oprIn := true, staIn := true, srv := true } 0 (Bus.Spec.byte 0x0c) = .ok (s5, { Bus.Spec.rest with srv := true }, Bus.Spec.byte 0x0c) := by
    simp [dev, s4, s5, Bus.Spec.rest, endAccept, endAccepted, withPar_ok 0x0c (by decide), Res.bind]
  have q5 : dev s5 Bus.Spec.rest 0 (Bus.Spec.byte 0x0c) = .ok ({ s5 with selected := false, st := .idle }, Bus.Spec.rest, Bus.Spec.byte 0x0c) := by
    simp [dev, s5, Bus.Spec.rest, statusWait]
  have p4 : Spec.stop ⟨s3, Spec.service, Spec.ebcdic c⟩ = _ := bind_ok (poll_ok q1) (bind_ok (poll_ok q2) (poll_ok q3))
  refine ⟨_, bind_ok (act_ok p1) (bind_ok (act_ok p2) (bind_ok p3 p4)), rfl, rfl, _, bind_ok (poll_ok q4) (poll_ok q5), rfl, ?_, h.flag, ?_⟩
  · exact ⟨⟨rfl, rfl, rfl, rfl, h.attn⟩, h.cons, h.tns, Nat.mod_lt _ (by decide), by simp [s5, s4, s3, s2]⟩
  · have c255 : c2 ≠ 255 := by omega
    have hl : (s.t.inPtr + 1) % 256 < 256 := Nat.mod_lt _ (by decide)
    have g5 : packet t2 [c2] = .ok { t2 with key := fun i => if i = t2.inPtr then c2 else t2.key i, inPtr := (t2.inPtr + 1) % 256, inLen := 1, sent := t2.sent ++ [c2] } := by
      simp [packet, t2, t1, h.cons, packetLoop, telnet, h.tns, c255, pushChar, b12, b27, b3, b13, h.flag, hl, Res.bind]
    refine ⟨⟨{ s5 with selected := false, st := .idle, t := { t2 with key := fun i => if i = t2.inPtr then c2 else t2.key i, inPtr := (t2.inPtr + 1) % 256, inLen := 1, sent := t2.sent ++ [c2] } }, _, _⟩, act_ok ?_, ?_⟩
    · show (packet t2 [c2]).bind _ = _
      rw [g5]
      rfl
    · simp [t2, t1]

/-- A read in progress, as `C50_violated_slow_channel` and `C85_violated_count` ask for. -/
example : ∃ s, Waiting s ∧ Spec.Printing 65 := by
  obtain ⟨L, -, -, s, -, -, h, -⟩ := start_read _ 0 (⟨⟨rfl, rfl, rfl, rfl, rfl⟩, rfl, rfl, by decide, by decide⟩ : Spec.Ready { init 0x1f with evs := [.poll], t := connect {} })
  exact ⟨s, h, by decide⟩

end Verif.Cons
