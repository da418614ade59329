import Verif.Mt.Safe
import Verif.Mt.Frames
/-!
# Channel programs on the 2415

A channel that performs one command from initial selection to the last status, and what it should see.
-/
namespace Verif.Mt
open Verif.Bus
open Verif.Card (Res)
open Verif.Tape (Tape St Fmt Z Item IsTE Rel)

namespace Spec

abbrev Link := Bus.Spec.Link S

/-- What is not determined by the program: how many calls of the bus function lie between two events, the rounds the
channel is willing to wait, whether it keeps hold out up. -/
structure World where
  gap : Nat → Nat
  rounds : Nat
  hold : Bool
  fuel : Nat
  junk : Nat

/-- The bus function is called `n` times while the channel does nothing. -/
def idles : Nat → Link → Res Link
  | 0, L => .ok L
  | n + 1, L => (Bus.Spec.poll dev L id 0).bind (idles n)

/-- The first pending event becomes due. -/
def tick (w : World) (L : Link) : Res Link := (fire w.fuel w.junk L.s 0).bind fun s => .ok ⟨s, L.t, L.bi⟩

/-- Data transfer on input: the next event, some calls of the bus function; a byte is accepted as long as bytes are wanted
and refused with command out afterwards; until the device shows its status.  The bytes seen on bus in are returned. -/
def receive (w : World) : Nat → Nat → Link → Res (List Nat × Link)
  | 0, _, _ => .fuel
  | r + 1, want, L =>
    ((tick w L).bind (idles (w.gap r + 2))).bind fun L =>
    if L.t.staIn then .ok ([], L)
    else if L.t.srvIn then
      match want with
      | 0 =>
        (Bus.Spec.poll dev L (fun t => { t with cmd := true }) (Bus.Spec.byte 0)).bind fun L =>
        (Bus.Spec.poll dev L (fun t => { t with cmd := false }) 0).bind (receive w r 0)
      | n + 1 => (Bus.Spec.accept dev L 0).bind fun L1 => (receive w r n L1).bind fun q => .ok (L.bi :: q.1, q.2)
    else receive w r want L

/-- The channel waits for request in while events become due. -/
def attend (w : World) : Nat → Link → Res Link
  | 0, _ => .fuel
  | r + 1, L => (idles (w.gap r + 1) L).bind fun L => if L.t.reqIn then .ok L else (tick w L).bind (attend w r)

/-- The channel answers request in: the address and the status the device shows, then the status is accepted. -/
def service (w : World) (L : Link) : Res ((Nat × Nat) × Link) :=
  (Bus.Spec.poll dev L (fun t => { t with sel := true, hld := w.hold }) 0).bind fun L =>
  (Bus.Spec.poll dev L id 0).bind fun La =>
  (Bus.Spec.poll dev La (fun t => { t with cmd := true }) (Bus.Spec.byte 0)).bind fun L =>
  (Bus.Spec.poll dev L (fun t => { t with cmd := false }) 0).bind fun Ls =>
  (Bus.Spec.accept dev Ls 0).bind fun L => .ok ((La.bi, Ls.bi), L)

/-- Hold out goes down. -/
def release (L : Link) : Res Link := Bus.Spec.poll dev L (fun t => { t with hld := false }) 0

/-- What the channel sees of a command: initial status, data, and if device end is not in the initial status the ending
status, with the address it came under if the device had to ask for the bus. -/
structure Result where
  initial : Nat
  data : List Nat := []
  ending : Option Nat := none
  under : Option Nat := none
deriving DecidableEq

/-- One command: unit `u` of the control, command byte `c`, room for `want` bytes. -/
def perform (w : World) (L : Link) (u c want : Nat) : Res (Result × Link) :=
  (Bus.Spec.initialSelection dev L ((L.s.addr &&& 0xf8) ||| u) c w.hold).bind fun L0 =>
  (Bus.Spec.accept dev L0 0).bind fun L1 =>
  if L1.t.oprIn then
    (receive w w.rounds want L1).bind fun q => (Bus.Spec.accept dev q.2 0).bind fun L => (release L).bind fun L =>
    .ok ({ initial := L0.bi, data := q.1, ending := some q.2.bi }, L)
  else (release L1).bind fun L =>
    if tst L0.bi sDevEnd then .ok ({ initial := L0.bi }, L)
    else (attend w w.rounds L).bind fun L => (service w L).bind fun q => (release q.2).bind fun L =>
    .ok ({ initial := L0.bi, ending := some q.1.2, under := some q.1.1 }, L)

end Spec

theorem bk {α β : Type} {a : α} {f : α → Res β} : (Res.ok a).bind f = f a := rfl

theorem bind_ok' {α β : Type} {x : Res α} {f : α → Res β} {b : β} (h : x.bind f = .ok b) : ∃ a, x = .ok a ∧ f a = .ok b := by
  cases x with
  | ok a => exact ⟨a, rfl, h⟩
  | oob => cases h
  | fuel => cases h

/-! ### At rest -/

/-- The control is at rest: nothing pending, nothing to report. -/
structure AtRest (s : S) : Prop where
  st : s.st = .idle
  selected : s.selected = false
  request : s.request = false
  stacked : s.stacked = false
  busyFlag : s.busyFlag = false
  status : s.status = 0
  rdy : ∀ u, s.rdy u = false
  evs : s.evs = []
  scan : s.tScan < 6
  addr : s.addr < 256
  pend : s.statUnit = none ∨ (s.se0 = 0 ∧ s.se1 = 0 ∧ s.se3 = 0)

/-- The control is free to take a command, although a tape may be moving. -/
structure Free (s : S) : Prop where
  st : s.st = .idle
  request : s.request = false
  stacked : s.stacked = false
  busyFlag : s.busyFlag = false
  status : s.status = 0
  rdy : ∀ u, s.rdy u = false
  addr : s.addr < 256

theorem AtRest.free {s : S} (h : AtRest s) : Free s := ⟨h.st, h.request, h.stacked, h.busyFlag, h.status, h.rdy, h.addr⟩

theorem AtRest.scan_to {s : S} (h : AtRest s) (k : Nat) (hk : k < 6) : AtRest { s with tScan := k } :=
  ⟨h.st, h.selected, h.request, h.stacked, h.busyFlag, h.status, h.rdy, h.evs, hk, h.addr, h.pend⟩

/-- The scanner moves on. -/
def scanNext (k : Nat) : Nat := if k + 1 ≥ 6 then 0 else k + 1

theorem scanNext_lt {k : Nat} (_h : k < 6) : scanNext k < 6 := by unfold scanNext; split <;> omega

theorem scan_quiet {s : S} (h : s.rdy s.tScan = false) : scan s = { s with tScan := scanNext s.tScan } := by
  unfold scan scanNext; rw [h]; simp

theorem anyRdy_false {s : S} (h : ∀ u, s.rdy u = false) : anyRdy s = false := by
  unfold anyRdy; simp [h]

/-- The address of a unit on bus out. -/
theorem unit_addr (a u : Nat) (ha : a < 256) (hu : u < 8) :
    Bus.Spec.byte ((a &&& 0xf8) ||| u) &&& 0xf8 = a &&& 0xf8 ∧ Bus.Spec.byte ((a &&& 0xf8) ||| u) % 8 = u ∧ parBad (Bus.Spec.byte ((a &&& 0xf8) ||| u)) = false := by
  have key : ∀ a : Fin 256, ∀ u : Fin 8, Bus.Spec.byte ((a.val &&& 0xf8) ||| u) &&& 0xf8 = a.val &&& 0xf8 ∧ Bus.Spec.byte ((a.val &&& 0xf8) ||| u) % 8 = u.val ∧
      parBad (Bus.Spec.byte ((a.val &&& 0xf8) ||| u)) = false := by decide +kernel
  exact key ⟨a, ha⟩ ⟨u, hu⟩

/-- The control selected with a command: the last call of the selection shows the status `deviceCmd` made. -/
theorem select_ok {s s1 : S} (h : Free s) (u c : Nat) (hu : u < 8) (hc : c < 256) (hold : Bool) (bi : Nat)
    (e : deviceCmd { s with tScan := scanNext s.tScan, curUnit := u, selected := true, st := .status } c = .ok s1) (h1 : s1.st = .status) (h2 : s1.status < 256) :
    Bus.Spec.initialSelection dev ⟨s, Bus.Spec.rest, bi⟩ ((s.addr &&& 0xf8) ||| u) c hold =
      .ok ⟨{ s1 with st := .statusAccept }, { opr := true, hld := hold, oprIn := true, staIn := true }, Bus.Spec.byte s1.status⟩ := by
  obtain ⟨a1, a2, a3⟩ := unit_addr s.addr u h.addr hu
  unfold Bus.Spec.initialSelection Bus.Spec.rest
  have e1 : dev s { opr := true, adr := true, sel := true, hld := hold } (Bus.Spec.byte ((s.addr &&& 0xf8) ||| u)) bi =
      .ok ({ s with tScan := scanNext s.tScan, curUnit := u, selected := true, st := .initSel }, { opr := true, adr := true, hld := hold, oprIn := true }, bytePar ((s.addr &&& 0xf8) ||| u)) := by
    unfold dev
    rw [if_neg (by simp)]
    simp only [h.st, idle, scan_quiet (h.rdy _)]
    simp [h.request, h.stacked, idleSel, a1, addressed, a2, a3, h.busyFlag, anyRdy, h.rdy]
  rw [poll_ok (by exact e1), bk]
  have e2 : dev { s with tScan := scanNext s.tScan, curUnit := u, selected := true, st := .initSel } { opr := true, hld := hold, oprIn := true } (Bus.Spec.byte ((s.addr &&& 0xf8) ||| u)) (bytePar ((s.addr &&& 0xf8) ||| u)) =
      .ok ({ s with tScan := scanNext s.tScan, curUnit := u, selected := true, st := .command }, { opr := true, hld := hold, oprIn := true, adrIn := true }, bytePar ((s.addr &&& 0xf8) ||| u)) := by
    unfold dev
    rw [if_neg (by simp)]
    simp [initSel]
  rw [poll_ok (by exact e2), bk]
  have e3 : dev { s with tScan := scanNext s.tScan, curUnit := u, selected := true, st := .command } { opr := true, hld := hold, oprIn := true, adrIn := true, cmd := true } (Bus.Spec.byte c) (bytePar ((s.addr &&& 0xf8) ||| u)) =
      .ok (s1, { opr := true, hld := hold, oprIn := true, cmd := true }, bytePar s.addr) := by
    unfold dev
    rw [if_neg (by simp)]
    simp only [command, command1, if_true, parBad_byte c hc, byte_mod c hc]
    rw [if_neg (by decide), if_neg (by rw [h.busyFlag]; decide), if_pos ⟨h.stacked, h.status⟩]
    have : ({ s with tScan := scanNext s.tScan, curUnit := u, selected := true, st := .status, request := false } : S) =
      { s with tScan := scanNext s.tScan, curUnit := u, selected := true, st := .status } := by rw [← h.request]
    rw [this, e, bk]
  rw [poll_ok (by exact e3), bk]
  have e4 : dev s1 { opr := true, hld := hold, oprIn := true } 0 (bytePar s.addr) =
      .ok ({ s1 with st := .statusAccept }, { opr := true, hld := hold, oprIn := true, staIn := true }, Bus.Spec.byte s1.status) := by
    unfold dev
    rw [if_neg (by simp)]
    simp only [h1, status, withPar_ok _ h2, bk]
  rw [poll_ok (by exact e4)]

/-! ### A command under way -/

/-- The command `c` for unit `u` is under way since the control was in state `s0`; the tape of that drive is now `t`. -/
structure Going (s0 s : S) (u c : Nat) (d : Drive) (t : Tape) (st : DState) (sel : Bool) (σ : Nat) (de : Bool) (evs : List Ev) (cd : Bool) : Prop where
  st : s.st = st
  selected : s.selected = sel
  status : s.status = σ
  dataEnd : s.dataEnd = de
  evs : s.evs = evs
  cmdDone : s.cmdDone = cd
  request : s.request = false
  stacked : s.stacked = false
  busyFlag : s.busyFlag = false
  cmd : s.cmd = c
  dataRdy : s.dataRdy = false
  se0 : s.se0 = 0
  rdy : ∀ v, s.rdy v = false
  curUnit : s.curUnit = u
  statUnit : s.statUnit = none
  scan : s.tScan < 6
  addr : s.addr = s0.addr
  rew : s.rew = s0.rew
  run : s.run = s0.run
  drives : s.drives = s0.drives.set u (some { d with t := t })

/-- Drive `u` is there, ready, nine track and not rewinding. -/
structure Ready (s : S) (u : Nat) (d : Drive) : Prop where
  lt : u < 6
  at' : s.drives[u]? = some (some d)
  opened : d.t.b.opened = true
  online : d.online = true
  nine : d.track9 = true
  rew : s.rew u = false
  run : s.run u = false

theorem sense1_ready {s : S} {u : Nat} {d : Drive} (h : Ready s u d) (hu : s.curUnit = u) :
    tst (sense1 s (some d)) eTub = false ∧ tst (sense1 s (some d)) e7Track = false ∧ tst (sense1 s (some d)) eLoad = d.t.b.bot ∧ tst (sense1 s (some d) &&& keep1) 1 = false := by
  cases hx : d.t.ring <;> cases hy : d.t.b.bot <;>
    simp [sense1, ready, h.opened, h.online, hu, h.rew, h.run, h.nine, Tape.atLoadpt, hx, hy, eTua, eTub, e7Track, eLoad, eNoRing, keep1, tst]

theorem setAt {s : S} {u : Nat} {d : Drive} (h : s.drives[u]? = some (some d)) : u < s.drives.length := (List.getElem?_eq_some_iff.1 h).1

section
variable {s0 s : S} {u c : Nat} {d : Drive} {t : Tape} {st : DState} {sel : Bool} {σ : Nat} {de : Bool} {evs : List Ev} {cd : Bool}

theorem Going.scan_to (h : Going s0 s u c d t st sel σ de evs cd) (k : Nat) (hk : k < 6) : Going s0 { s with tScan := k } u c d t st sel σ de evs cd :=
  ⟨h.st, h.selected, h.status, h.dataEnd, h.evs, h.cmdDone, h.request, h.stacked, h.busyFlag, h.cmd, h.dataRdy, h.se0, h.rdy, h.curUnit, h.statUnit, hk, h.addr, h.rew, h.run, h.drives⟩

/-- The drive under the command. -/
theorem Going.drive (h : Going s0 s u c d t st sel σ de evs cd) (hu : u < s0.drives.length) : drive s u = .ok { d with t := t } := by
  unfold Mt.drive
  rw [h.drives, List.getElem?_set_self hu]

theorem Going.nine (h : Going s0 s u c d t st sel σ de evs cd) (hu : u < s0.drives.length) : Mt.nine s u = .ok d.track9 := by
  unfold Mt.nine
  rw [h.drives, List.getElem?_set_self hu]

/-- The control has prepared the command. -/
structure Prepared (s p : S) (u c : Nat) (d : Drive) : Prop where
  st : p.st = .status
  selected : p.selected = true
  status : p.status = 0
  dataEnd : p.dataEnd = false
  evs : p.evs = []
  cmdDone : p.cmdDone = true
  request : p.request = false
  stacked : p.stacked = false
  busyFlag : p.busyFlag = false
  cmd : p.cmd = c
  dataRdy : p.dataRdy = false
  rdy : ∀ v, p.rdy v = false
  curUnit : p.curUnit = u
  statUnit : p.statUnit = none
  scan : p.tScan < 6
  addr : p.addr = s.addr
  rew : p.rew = s.rew
  run : p.run = s.run
  drives : p.drives = s.drives
  tub : tst p.se1 eTub = false
  t7 : tst p.se1 e7Track = false
  load : tst p.se1 eLoad = d.t.b.bot
  keep : tst (p.se1 &&& keep1) 1 = false
  drive : Mt.drive p u = .ok d

theorem prepare (h : AtRest s) (hr : Ready s u d) (c : Nat) :
    ∃ p, deviceCmd { s with tScan := scanNext s.tScan, curUnit := u, selected := true, st := .status } c = cmdSwitch p ∧ Prepared s p u c d := by
  obtain ⟨f1, f2, f3, f4⟩ := sense1_ready (s := { s with tScan := scanNext s.tScan, curUnit := u, selected := true, st := .status }) ⟨hr.lt, hr.at', hr.opened, hr.online, hr.nine, hr.rew, hr.run⟩ rfl
  refine ⟨cmdPrep { s with tScan := scanNext s.tScan, curUnit := u, selected := true, st := .status } (some d) c, ?_, ?_⟩
  · unfold deviceCmd
    rw [if_neg (by
      rintro ⟨q, -, q'⟩
      rcases h.pend with p | ⟨p1, p2, p3⟩
      · rw [p] at q; cases q
      · rw [p1, p2, p3] at q'; revert q'; decide)]
    simp only [hr.at']
  · refine ⟨rfl, rfl, rfl, rfl, h.evs, rfl, h.request, h.stacked, h.busyFlag, rfl, rfl, ?_, rfl, rfl, scanNext_lt h.scan, rfl, rfl, rfl, rfl, f1, f2, f3, f4, ?_⟩
    · intro v
      show upd s.rdy u false v = false
      unfold upd
      split
      · rfl
      · exact h.rdy v
    · show (match s.drives[u]? with | some (some d) => Res.ok d | _ => .oob) = _
      rw [hr.at']

/-- A tape operation is started, with channel end if `de`. -/
theorem begin_going {p : S} (h : Prepared s p u c d) (hu : u < s.drives.length) (t1 : Tape) (de : Bool) (hc : c ≠ 4) :
    Going s (cmdTail (begin (setTape { clear p with dataEnd := de } u d t1))) u c d t1 .status true (if de then 8 else 0) de [.tape u] false := by
  unfold cmdTail
  rw [if_neg (by
    rintro ⟨-, q | q⟩
    · exact q (Nat.zero_and _)
    · exact absurd q (by rw [show (begin (setTape { clear p with dataEnd := de } u d t1)).se1 = p.se1 &&& keep1 from rfl, h.keep]; decide))]
  refine ⟨h.st, h.selected, ?_, rfl, ?_, rfl, h.request, h.stacked, h.busyFlag, h.cmd, h.dataRdy, rfl, h.rdy, h.curUnit, h.statUnit, h.scan, h.addr, h.rew, h.run, ?_⟩
  · show p.status ||| (if de then sChnEnd else 0) ||| (if false = true then sDevEnd else 0) = _
    rw [h.status]; cases de <;> decide
  · show p.evs ++ [.tape p.curUnit] = _
    rw [h.evs, h.curUnit]; rfl
  · show p.drives.set u _ = _
    rw [h.drives]

/-- The command is read or read backward and reading has started. -/
theorem start_read (h : AtRest s) (hr : Ready s u d) {start : Tape → Tape.Res (St × Tape)} {t1 : Tape} {r : St}
    (hc : ((c % 16 = 2 ∨ c % 16 = 6 ∨ c % 16 = 10 ∨ c % 16 = 14) ∧ start = Tape.readForw) ∨ (c % 16 = 12 ∧ start = Tape.readBack ∧ d.t.b.bot = false))
    (hs : start d.t = .ok (r, t1)) (hf : r ≠ .fileError) :
    ∃ s1, deviceCmd { s with tScan := scanNext s.tScan, curUnit := u, selected := true, st := .status } c = .ok s1 ∧
      Going s s1 u c d t1 .status true 0 false [.tape u] false := by
  obtain ⟨p, e, hp⟩ := prepare h hr c
  have hl := setAt hr.at'
  rw [e]
  refine ⟨_, ?_, begin_going hp hl t1 false (by omega)⟩
  have he : ({ clear p with dataEnd := false } : S) = clear p := by
    have : (clear p).dataEnd = false := hp.dataEnd
    rw [← this]
  rw [he]
  unfold cmdSwitch
  rcases hc with ⟨hc, rfl⟩ | ⟨hc, rfl, hb⟩
  · rw [hp.cmd, if_neg (by omega), if_neg (by omega), if_pos hc]
    unfold cmdRead
    rw [if_neg (by rw [hp.tub]; decide), hp.curUnit, hp.drive, bk, if_neg (by rw [hr.opened]; decide), hs]
    show Res.ok (cmdTail (started (clear p) u d (r, t1))) = _
    unfold started
    rw [if_neg hf]
  · rw [hp.cmd, if_neg (by omega), if_neg (by omega), if_neg (by omega), if_pos hc]
    unfold cmdReadBack
    rw [if_neg (by rw [hp.tub]; decide), hp.curUnit, hp.drive, bk, if_neg (by rw [hr.opened]; decide), if_neg (by rw [hp.load, hb]; decide), hs]
    show Res.ok (cmdTail (started (clear p) u d (r, t1))) = _
    unfold started
    rw [if_neg hf]

/-- The command moves the tape and the motion has started. -/
theorem start_space (h : AtRest s) (hr : Ready s u d) {start : Tape → Tape.Res (St × Tape)} {t1 : Tape} {r : St}
    (hc : ((c = 0x37 ∨ c = 0x3f) ∧ start = Tape.readForw) ∨ ((c = 0x27 ∨ c = 0x2f) ∧ start = Tape.readBack ∧ d.t.b.bot = false) ∨ (c = 7 ∧ start = fun t => .ok (.ok, t)) ∨
      (c = 0x1f ∧ d.t.ring = true ∧ start = fun t => .ok (.ok, t)))
    (hs : start d.t = .ok (r, t1)) (hf : r ≠ .fileError) :
    ∃ s1, deviceCmd { s with tScan := scanNext s.tScan, curUnit := u, selected := true, st := .status } c = .ok s1 ∧
      Going s s1 u c d t1 .status true 8 true [.tape u] false := by
  obtain ⟨p, e, hp⟩ := prepare h hr c
  have hl := setAt hr.at'
  rw [e]
  have h7 : c % 16 = 7 ∨ c % 16 = 15 := by omega
  refine ⟨_, ?_, begin_going hp hl t1 true (by omega)⟩
  unfold cmdSwitch
  rw [hp.cmd, if_neg (by omega), if_neg (by omega), if_neg (by omega), if_neg (by omega), if_neg (by omega), if_neg (by omega), if_pos h7]
  unfold cmdMotion
  rw [if_neg (by rw [hp.tub]; decide), hp.curUnit, hp.drive, bk, if_neg (by rw [hr.opened]; decide), hp.cmd]
  have same : setTape { clear p with dataEnd := true } u d d.t = { clear p with dataEnd := true } := by
    unfold setTape setDrive
    have : p.drives.set u (some d) = p.drives := by
      apply List.ext_getElem?
      intro i
      rw [List.getElem?_set]
      split
      · rename_i q
        subst q
        rw [hp.drives, if_pos hl, hr.at']
      · rfl
    show ({ clear p with dataEnd := true, drives := p.drives.set u (some d) } : S) = _
    rw [this]
    rfl
  rcases hc with ⟨hc, rfl⟩ | ⟨hc, rfl, hb⟩ | ⟨hc, rfl⟩ | ⟨hc, hring, rfl⟩
  · rw [if_neg (by omega), if_neg (by omega), if_pos hc, hs]
    show Res.ok (cmdTail (started _ u d (r, t1))) = _
    unfold started
    rw [if_neg hf]
  · rw [if_neg (by omega), if_neg (by omega), if_neg (by omega), if_pos hc, if_neg (by rw [hp.load, hb]; decide), hs]
    show Res.ok (cmdTail (started _ u d (r, t1))) = _
    unfold started
    rw [if_neg hf]
  · simp only [Tape.Res.ok.injEq, Prod.mk.injEq] at hs
    obtain ⟨rfl, rfl⟩ := hs
    rw [if_neg (by omega), if_pos (by omega), bk, same]
  · simp only [Tape.Res.ok.injEq, Prod.mk.injEq] at hs
    obtain ⟨rfl, rfl⟩ := hs
    rw [if_pos (by omega), if_neg (by rw [hring]; decide), bk, same]

end

end Verif.Mt
