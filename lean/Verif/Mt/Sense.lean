import Verif.Mt.Program
/-!
# Commands that end at once, and sense
-/
namespace Verif.Mt
open Verif.Bus
open Verif.Card (Res)
open Verif.Tape (Tape St Fmt Z Item IsTE Rel)

/-- Nothing but what a command itself changes: the parts of the state an observer of other units sees. -/
structure Same (s s' : S) : Prop where
  addr : s'.addr = s.addr
  rew : s'.rew = s.rew
  run : s'.run = s.run
  drives : s'.drives = s.drives
  se0 : s'.se0 = s.se0
  se3 : s'.se3 = s.se3

/-- A control that has nothing left to do but the status handshake. -/
structure Over (s : S) (σ : Nat) : Prop where
  status : s.status = σ
  evs : s.evs = []
  cmdDone : s.cmdDone = true
  request : s.request = false
  busyFlag : s.busyFlag = false
  rdy : ∀ v, s.rdy v = false
  statUnit : s.statUnit = none
  scan : s.tScan < 6
  addr : s.addr < 256

/-- The initial status ends the command. -/
theorem now_ok {s : S} {σ : Nat} (h : Over s σ) (hσ : σ < 256) (hold : Bool) (bi : Nat) :
    ∃ s' L bi', Bus.Spec.accept dev ⟨{ s with st := .statusAccept }, { opr := true, hld := hold, oprIn := true, staIn := true }, bi⟩ 0 = .ok L ∧ L.t.oprIn = false ∧
      Spec.release L = .ok ⟨s', Bus.Spec.rest, bi'⟩ ∧ AtRest s' ∧ Same s s' := by
  have hr : AtRest { s with chaining := false, status := 0, stacked := false, dataEnd := false, cmdDone := false, cmd := 0, busyFlag := false, st := .idle, selected := false, rdy := upd s.rdy s.curUnit false } := by
    refine ⟨rfl, rfl, h.request, rfl, rfl, rfl, ?_, h.evs, h.scan, h.addr, .inl h.statUnit⟩
    intro v
    show upd s.rdy s.curUnit false v = false
    unfold upd
    split
    · rfl
    · exact h.rdy v
  refine ⟨_, ⟨_, { opr := true, hld := hold }, Bus.Spec.byte σ⟩, _, ?_, rfl, release_ok hr, hr.scan_to _ (scanNext_lt h.scan), ⟨rfl, rfl, rfl, rfl, rfl, rfl⟩⟩
  unfold Bus.Spec.accept
  have hw : withPar ({ s with st := .statusAccept } : S).status = .ok (Bus.Spec.byte σ) := by
    show withPar s.status = _
    rw [h.status]; exact withPar_ok σ hσ
  have e1 : dev { s with st := .statusAccept } { opr := true, hld := hold, oprIn := true, staIn := true, srv := true } 0 bi =
      .ok ({ s with chaining := false, status := 0, stacked := false, dataEnd := false, cmdDone := false, cmd := 0, busyFlag := false, st := .statusWait, rdy := upd s.rdy s.curUnit false },
        { opr := true, hld := hold, srv := true }, Bus.Spec.byte σ) := by
    unfold dev
    rw [if_neg (by simp)]
    show statusAccept _ _ = _
    unfold statusAccept
    rw [hw, bk]
    simp [accepted, h.cmdDone]
  rw [poll_ok (by exact e1), bk]
  have e2 : dev { s with chaining := false, status := 0, stacked := false, dataEnd := false, cmdDone := false, cmd := 0, busyFlag := false, st := .statusWait, rdy := upd s.rdy s.curUnit false } { opr := true, hld := hold } 0 (Bus.Spec.byte σ) =
      .ok ({ s with chaining := false, status := 0, stacked := false, dataEnd := false, cmdDone := false, cmd := 0, busyFlag := false, st := .idle, selected := false, rdy := upd s.rdy s.curUnit false },
        { opr := true, hld := hold }, Bus.Spec.byte σ) := by
    unfold dev
    rw [if_neg (by simp)]
    simp [statusWait]
  exact poll_ok (by exact e2)

theorem perform_now {s s1 : S} {u c σ : Nat} (w : Spec.World) (h : AtRest s) (hu : u < 8) (hc : c < 256)
    (e : deviceCmd { s with tScan := scanNext s.tScan, curUnit := u, selected := true, st := .status } c = .ok s1) (h1 : s1.st = .status) (ho : Over s1 σ) (hσ : σ < 256)
    (hd : tst (Bus.Spec.byte σ) sDevEnd = true) (want bi : Nat) :
    ∃ s' bi', Spec.perform w ⟨s, Bus.Spec.rest, bi⟩ u c want = .ok ({ initial := Bus.Spec.byte σ }, ⟨s', Bus.Spec.rest, bi'⟩) ∧ AtRest s' ∧ Same s1 s' := by
  have e2 := select_ok h.free u c hu hc w.hold bi e h1 (by rw [ho.status]; exact hσ)
  have hb : Bus.Spec.byte s1.status = Bus.Spec.byte σ := by rw [ho.status]
  rw [hb] at e2
  obtain ⟨s', L, b, e3, e4, e5, k1, k2⟩ := now_ok ho hσ w.hold (Bus.Spec.byte σ)
  refine ⟨s', b, ?_, k1, k2⟩
  unfold Spec.perform
  rw [e2, bk, e3, bk, if_neg (by rw [e4]; decide), e5, bk, if_pos (by exact hd)]

/-- What has been prepared is over unless a command undoes that. -/
theorem Prepared.over {s p p' : S} {u c σ : Nat} {d : Drive} (h : Prepared s p u c d) (ha : AtRest s) (h1 : p'.status = σ) (h2 : p'.cmdDone = true) (h3 : p'.evs = p.evs) (h4 : p'.request = p.request)
    (h5 : p'.busyFlag = p.busyFlag) (h6 : p'.rdy = p.rdy) (h7 : p'.statUnit = p.statUnit) (h8 : p'.tScan = p.tScan) (h9 : p'.addr = p.addr) : Over p' σ :=
  ⟨h1, by rw [h3, h.evs], h2, by rw [h4, h.request], by rw [h5, h.busyFlag], by rw [h6]; exact h.rdy, by rw [h7, h.statUnit], by rw [h8]; exact h.scan, by rw [h9, h.addr]; exact ha.addr⟩

/-- The write commands. -/
def IsWrite (c : Nat) : Prop := c % 4 = 1

/-- A reel without the ring. -/
theorem write_protected {s : S} {u c : Nat} {d : Drive} (w : Spec.World) (hc : IsWrite c ∨ c = 0x17 ∨ c = 0x1f) (hc8 : c < 256) (h : AtRest s) (hr : Ready s u d) (hg : d.t.ring = false) (want bi : Nat) :
    ∃ s' bi', Spec.perform w ⟨s, Bus.Spec.rest, bi⟩ u c want = .ok ({ initial := Bus.Spec.byte 0x0e }, ⟨s', Bus.Spec.rest, bi'⟩) ∧ AtRest s' ∧
      s'.addr = s.addr ∧ s'.rew = s.rew ∧ s'.run = s.run ∧ s'.drives = s.drives ∧ s'.se0 = 0x80 ∧ s'.se3 = 0 := by
  obtain ⟨p, e, hp⟩ := prepare h hr c
  unfold IsWrite at hc
  have e1 : cmdSwitch p = .ok (cmdTail { clear p with se0 := eCmdRej }) := by
    rcases hc with hc | hc
    · unfold cmdSwitch cmdWrite
      rw [hp.cmd, if_neg (by omega), if_pos (by omega), if_neg (by rw [hp.tub]; decide), hp.curUnit, hp.drive, bk, if_neg (by rw [hr.opened]; decide), if_pos hg, bk]
    · unfold cmdSwitch cmdMotion
      rw [hp.cmd, if_neg (by omega), if_neg (by omega), if_neg (by omega), if_neg (by omega), if_neg (by omega), if_neg (by omega), if_pos (by omega), if_neg (by rw [hp.tub]; decide), hp.curUnit, hp.drive, bk,
        if_neg (by rw [hr.opened]; decide), if_pos hc, if_pos hg, bk]
  have e2 : cmdTail { clear p with se0 := eCmdRej } = { clear p with se0 := eCmdRej, status := 0x0e, cmd := 0, dataEnd := true, cmdDone := true } := by
    unfold cmdTail
    rw [if_pos (by refine ⟨?_, .inl ?_⟩; · show p.cmd ≠ 4; rw [hp.cmd]; omega
                   · show eCmdRej &&& 253 ≠ 0; decide)]
    show ({ clear p with se0 := eCmdRej, status := p.status ||| sUnitChk ||| sChnEnd ||| sDevEnd, cmd := 0, dataEnd := true, cmdDone := true } : S) = _
    rw [hp.status]
    rfl
  rw [e2] at e1
  obtain ⟨s', bi', k1, k2, k3⟩ := perform_now (σ := 0x0e) w h (by have := hr.lt; omega) hc8 (e.trans e1) hp.st (hp.over h rfl rfl rfl rfl rfl rfl rfl rfl rfl) (by decide) (by decide) want bi
  exact ⟨s', bi', k1, k2, by rw [k3.addr]; exact hp.addr, by rw [k3.rew]; exact hp.rew, by rw [k3.run]; exact hp.run, by rw [k3.drives]; exact hp.drives, by rw [k3.se0]; rfl, by rw [k3.se3]; rfl⟩

/-- A reel with the ring: the start of the record is on the tape and the command is over. -/
theorem write_lost {s : S} {u c : Nat} {d : Drive} (w : Spec.World) (hc : IsWrite c) (hc8 : c < 256) (h : AtRest s) (hr : Ready s u d) {t1 : Tape} {q : St} (hg : d.t.ring = true)
    (hs : Tape.writeStart d.t = .ok (q, t1)) (hq : q ≠ .eot) (hq' : q ≠ .bot) (want bi : Nat) :
    ∃ s' bi', Spec.perform w ⟨s, Bus.Spec.rest, bi⟩ u c want = .ok ({ initial := Bus.Spec.byte 0x0e }, ⟨s', Bus.Spec.rest, bi'⟩) ∧ After s s' u d t1 ∧ s'.se0 = 0x40 ∧ s'.se3 = 0 := by
  obtain ⟨p, e, hp⟩ := prepare h hr c
  unfold IsWrite at hc
  have e1 : cmdSwitch p = .ok (cmdTail { setTape (clear p) u d t1 with se0 := eInterv }) := by
    unfold cmdSwitch cmdWrite
    rw [hp.cmd, if_neg (by omega), if_pos (by omega), if_neg (by rw [hp.tub]; decide), hp.curUnit, hp.drive, bk, if_neg (by rw [hr.opened]; decide), if_neg (by rw [hg]; decide), hs]
    simp only [up, bk]
  have e2 : cmdTail { setTape (clear p) u d t1 with se0 := eInterv } = { setTape (clear p) u d t1 with se0 := eInterv, status := 0x0e, cmd := 0, dataEnd := true, cmdDone := true } := by
    unfold cmdTail
    rw [if_pos (by refine ⟨?_, .inl ?_⟩; · show p.cmd ≠ 4; rw [hp.cmd]; omega
                   · show eInterv &&& 253 ≠ 0; decide)]
    show ({ setTape (clear p) u d t1 with se0 := eInterv, status := p.status ||| sUnitChk ||| sChnEnd ||| sDevEnd, cmd := 0, dataEnd := true, cmdDone := true } : S) = _
    rw [hp.status]
    rfl
  rw [e2] at e1
  obtain ⟨s', bi', k1, k2, k3⟩ := perform_now (σ := 0x0e) w h (by have := hr.lt; omega) hc8 (e.trans e1) hp.st (hp.over h rfl rfl rfl rfl rfl rfl rfl rfl rfl) (by decide) (by decide) want bi
  refine ⟨s', bi', k1, ⟨k2, by rw [k3.addr]; exact hp.addr, by rw [k3.rew]; exact hp.rew, by rw [k3.run]; exact hp.run, ?_⟩, by rw [k3.se0]; rfl, by rw [k3.se3]; rfl⟩
  rw [k3.drives]
  show p.drives.set u _ = _
  rw [hp.drives]

/-! ## Sense -/

namespace Spec

/-- The six sense bytes: what the last operation left in bytes 0 and 3, the state of the drive in byte 1, and byte 2. -/
def senseBytes (s : S) (u : Nat) (d : Option Drive) : List Nat := [s.se0, sense1 { s with curUnit := u } d, 3, s.se3, 0, 0]

end Spec

/-- What a round of `receive` does when it finds the bus in state `L`. -/
def react (w : Spec.World) (r want : Nat) (L : Spec.Link) : Res (List Nat × Spec.Link) :=
  if L.t.staIn then .ok ([], L)
  else if L.t.srvIn then
    match want with
    | 0 =>
      (Bus.Spec.poll dev L (fun t => { t with cmd := true }) (Bus.Spec.byte 0)).bind fun L =>
      (Bus.Spec.poll dev L (fun t => { t with cmd := false }) 0).bind (Spec.receive w r 0)
    | n + 1 => (Bus.Spec.accept dev L 0).bind fun L1 => (Spec.receive w r n L1).bind fun q => .ok (L.bi :: q.1, q.2)
  else Spec.receive w r want L

theorem receive_succ (w : Spec.World) (r want : Nat) (L : Spec.Link) : Spec.receive w (r + 1) want L = ((Spec.tick w L).bind (Spec.idles (w.gap r + 2))).bind (react w r want) := by
  cases want <;> rfl

/-- After `m` calls something is up, and stays up. -/
def Reaches : Nat → Spec.Link → Spec.Link → Prop
  | 0, L, L' => L = L' ∧ dev L.s L.t 0 L.bi = .ok (L.s, L.t, L.bi) ∧ (L.t.staIn = true ∨ L.t.srvIn = true) ∧ L.s.evs = []
  | m + 1, L, L' => L.s.evs = [] ∧ L.t.staIn = false ∧ L.t.srvIn = false ∧ ∃ s t bi, dev L.s L.t 0 L.bi = .ok (s, t, bi) ∧ Reaches m ⟨s, t, bi⟩ L'

theorem Reaches.evs {m : Nat} {L L' : Spec.Link} (h : Reaches m L L') : L.s.evs = [] := by
  cases m with
  | zero => exact h.2.2.2
  | succ m => exact h.1

theorem Reaches.idles {L' : Spec.Link} : ∀ (n : Nat) {m : Nat} {L : Spec.Link}, Reaches m L L' →
    (m ≤ n ∧ Spec.idles n L = .ok L') ∨ (n < m ∧ ∃ L2, Spec.idles n L = .ok L2 ∧ Reaches (m - n) L2 L') := by
  intro n
  induction n with
  | zero =>
    intro m L h
    cases m with
    | zero => exact .inl ⟨Nat.le_refl _, by rw [h.1]; rfl⟩
    | succ m => exact .inr ⟨Nat.succ_pos _, L, rfl, h⟩
  | succ n ih =>
    intro m L h
    cases m with
    | zero =>
      obtain ⟨rfl, h2, -⟩ := h
      exact .inl ⟨Nat.zero_le _, idles_fix h2 _⟩
    | succ m =>
      obtain ⟨-, -, -, s, t, bi, e, h'⟩ := h
      have e' := idles_step e n
      rcases ih h' with ⟨a, b⟩ | ⟨a, L2, b, c⟩
      · exact .inl ⟨by omega, e'.trans b⟩
      · exact .inr ⟨by omega, L2, e'.trans b, by rw [Nat.add_sub_add_right]; exact c⟩

/-- The channel finds it. -/
theorem Reaches.receive (w : Spec.World) {L' : Spec.Link} {P : Res (List Nat × Spec.Link) → Prop} (want k : Nat) (hP : ∀ r, k ≤ r → P (react w r want L')) :
    ∀ (m r : Nat) {L : Spec.Link}, Reaches m L L' → m + k < r → P (Spec.receive w r want L) := by
  intro m
  induction m using Nat.strongRecOn with
  | ind m ih =>
    intro r L h hr
    cases r with
    | zero => omega
    | succ r =>
      rw [receive_succ]
      have ht : Spec.tick w L = .ok L := by
        unfold Spec.tick fire
        simp only [h.evs]
        rfl
      rw [ht, bk]
      rcases h.idles (w.gap r + 2) with ⟨-, b⟩ | ⟨a, L2, b, c⟩
      · rw [b, bk]; exact hP r (by omega)
      · rw [b, bk]
        have hn : L2.t.staIn = false ∧ L2.t.srvIn = false := by
          obtain ⟨i, hi⟩ : ∃ i, m - (w.gap r + 2) = i + 1 := ⟨m - (w.gap r + 2) - 1, by omega⟩
          rw [hi] at c
          exact ⟨c.2.1, c.2.2.1⟩
        unfold react
        rw [if_neg (by rw [hn.1]; decide), if_neg (by rw [hn.2]; decide)]
        exact ih _ (by omega) r c (by omega)

/-- The sense command has been given; `b` is the state but for the byte on its way. -/
structure Sensing (b : S) : Prop where
  cmd : b.cmd = 4
  status : b.status = 0
  dataEnd : b.dataEnd = false
  cmdDone : b.cmdDone = false
  evs : b.evs = []
  request : b.request = false
  busyFlag : b.busyFlag = false
  rdy : ∀ v, b.rdy v = false
  statUnit : b.statUnit = none
  scan : b.tScan < 6
  addr : b.addr < 256
  bytes : ∀ k, senseAt b k < 256

/-- Byte `x` on its way, number `k`. -/
def sending (b : S) (st : DState) (x k : Nat) (rdy : Bool) : S := { b with st := st, data := x, senseCnt := k, dataRdy := rdy }

/-- Channel end and device end are on the bus. -/
structure SenseEnd (b s : S) : Prop where
  st : s.st = .endAccept
  over : Over s 12
  same : Same b s

/-- The sense bytes from number `k` on. -/
def senseFrom (b : S) (k : Nat) : List Nat := (List.range (6 - k)).map fun i => senseAt b (k + i)

theorem senseFrom_cons (b : S) {k : Nat} (h : k < 6) : senseFrom b k = senseAt b k :: senseFrom b (k + 1) := by
  unfold senseFrom
  rw [show 6 - k = (6 - (k + 1)) + 1 by omega, List.range_succ_eq_map]
  simp [Function.comp_def, Nat.add_assoc, Nat.add_comm 1]

def dataTags (hold : Bool) : Tags := { opr := true, hld := hold, oprIn := true, srvIn := true }
def endTags (hold : Bool) : Tags := { opr := true, hld := hold, oprIn := true, staIn := true }

section
variable {b : S} (h : Sensing b) (w : Spec.World) (hold : Bool)
include h

/-- The end of the command. -/
theorem sense_end (x k : Nat) (bi want : Nat) {P : Res (List Nat × Spec.Link) → Prop} {s : S}
    (hs : s = { b with st := .endStatus, data := x, senseCnt := k, dataRdy := false, dataEnd := true, cmdDone := true, busyFlag := false, status := 12 })
    (hP : ∀ s2, SenseEnd b s2 → P (.ok ([], ⟨s2, endTags hold, Bus.Spec.byte 12⟩))) (r : Nat) (hr : 1 < r) : P (Spec.receive w r want ⟨s, conn hold, bi⟩) := by
  have hw : withPar s.status = .ok (Bus.Spec.byte 12) := by rw [hs]; exact withPar_ok 12 (by decide)
  have hre : Reaches 1 ⟨s, conn hold, bi⟩ ⟨{ s with st := .endAccept }, endTags hold, Bus.Spec.byte 12⟩ := by
    refine ⟨by rw [hs]; exact h.evs, rfl, rfl, { s with st := .endAccept }, endTags hold, Bus.Spec.byte 12, ?_, rfl, ?_, .inl rfl, by rw [hs]; exact h.evs⟩
    · unfold dev
      rw [if_neg (by simp [conn])]
      have : s.st = .endStatus := by rw [hs]
      simp only [this, endStatus]
      rw [if_neg (by simp [conn]), hw, bk]
      rfl
    · unfold dev
      rw [if_neg (by simp [endTags])]
      have hw' : withPar ({ s with st := .endAccept } : S).status = .ok (Bus.Spec.byte 12) := hw
      show endAccept _ _ = _
      unfold endAccept
      rw [hw', bk, if_neg (by simp [endTags]), if_neg (by simp [endTags])]
      rfl
  refine Reaches.receive w (P := P) want 0 (fun r _ => ?_) 1 r hre (by omega)
  unfold react
  rw [if_pos (by rfl)]
  refine hP _ ⟨rfl, ⟨?_, ?_, ?_, ?_, ?_, ?_, ?_, ?_, ?_⟩, ?_⟩
  all_goals rw [hs]
  · exact h.evs
  · exact h.request
  · exact h.rdy
  · exact h.statUnit
  · exact h.scan
  · exact h.addr
  · exact ⟨rfl, rfl, rfl, rfl, rfl, rfl⟩

theorem sense_data (x k bi : Nat) (hx : x < 256) : dev (sending b .data1 x k true) (conn hold) 0 bi = .ok (sending b .data2 x k true, dataTags hold, Bus.Spec.byte x) ∧
    dev (sending b .data2 x k true) (dataTags hold) 0 (Bus.Spec.byte x) = .ok (sending b .data2 x k true, dataTags hold, Bus.Spec.byte x) := by
  have hw : withPar (sending b .data1 x k true).data = .ok (Bus.Spec.byte x) := withPar_ok x hx
  have hw' : withPar (sending b .data2 x k true).data = .ok (Bus.Spec.byte x) := withPar_ok x hx
  constructor
  · unfold dev
    rw [if_neg (by simp [conn])]
    show data1 _ _ _ = _
    unfold data1
    rw [if_neg (by simp [conn]), hw, bk]
    rfl
  · unfold dev
    rw [if_neg (by simp [dataTags])]
    show data2 _ _ _ = _
    unfold data2
    rw [hw', bk, if_neg (by simp [dataTags])]
    rfl

/-- A sense byte is on the bus. -/
theorem sense_react (j : Nat) : ∀ (k : Nat) (_ : k + j = 6) (_ : 0 < k) (want : Nat) {P : Res (List Nat × Spec.Link) → Prop} (_ : ∀ s2, SenseEnd b s2 →
      P (.ok (((senseFrom b (k - 1)).take want).map Bus.Spec.byte, ⟨s2, endTags hold, Bus.Spec.byte 12⟩))) (r : Nat) (_ : 3 * j + 2 ≤ r),
    P (react w r want ⟨sending b .data2 (senseAt b (k - 1)) k true, dataTags hold, Bus.Spec.byte (senseAt b (k - 1))⟩) := by
  have c1 : tst b.cmd 1 = false := by rw [h.cmd]; decide
  have hq : ∀ s : S, s.request = false → ({ s with request := false } : S) = s := by intro s hs; rw [← hs]
  have key : ∀ (k want : Nat) (_ : 0 < k) (_ : k ≤ 6) (P : Res (List Nat × Spec.Link) → Prop) (_ : ∀ s2, SenseEnd b s2 →
      P (.ok (((senseFrom b (k - 1)).take want).map Bus.Spec.byte, ⟨s2, endTags hold, Bus.Spec.byte 12⟩))) (r : Nat) (_ : 2 ≤ r)
      (_ : k < 6 → ∀ (n bi : Nat) (Q : Res (List Nat × Spec.Link) → Prop), (∀ s2, SenseEnd b s2 → Q (.ok (((senseFrom b k).take n).map Bus.Spec.byte, ⟨s2, endTags hold, Bus.Spec.byte 12⟩))) →
        Q (Spec.receive w r n ⟨sending b .opr (senseAt b k) (k + 1) true, conn hold, bi⟩)),
      P (react w r want ⟨sending b .data2 (senseAt b (k - 1)) k true, dataTags hold, Bus.Spec.byte (senseAt b (k - 1))⟩) := by
    intro k want hk hk6 P hP r hr hnext
    have hx := h.bytes (k - 1)
    generalize hxe : senseAt b (k - 1) = x at hx
    have hw' : withPar (sending b .data2 x k true).data = .ok (Bus.Spec.byte x) := withPar_ok x hx
    unfold react
    rw [if_neg (by simp [dataTags]), if_pos (by rfl)]
    cases want with
    | zero =>
      have e1 : dev (sending b .data2 x k true) { dataTags hold with cmd := true } (Bus.Spec.byte 0) (Bus.Spec.byte x) =
          .ok ({ sending b .opr x k false with dataEnd := true, status := 8 }, { conn hold with cmd := true }, Bus.Spec.byte x) := by
        unfold dev
        rw [if_neg (by simp [dataTags])]
        show data2 _ _ _ = _
        unfold data2
        rw [hw', bk, if_pos (by simp)]
        unfold takeByte
        rw [if_neg (by show ¬ tst b.cmd 1 = true; rw [c1]; decide)]
        rfl
      have e2 : dev { sending b .opr x k false with dataEnd := true, status := 8 } (conn hold) 0 (Bus.Spec.byte x) =
          .ok ({ b with st := .endStatus, data := x, senseCnt := k, dataRdy := false, dataEnd := true, cmdDone := true, busyFlag := false, status := 12 }, conn hold, Bus.Spec.byte x) := by
        unfold dev
        rw [if_neg (by simp [conn])]
        show Res.ok (opr _ _ _) = _
        unfold opr
        rw [if_neg (by simp [conn]), if_neg (by simp [sending]), hq { sending b .opr x k false with dataEnd := true, status := 8 } h.request]
        unfold oprSense
        rw [if_pos (by show b.cmd % 16 = 4; rw [h.cmd]), if_neg (by simp)]
        show Res.ok (({ b with st := .endStatus, data := x, senseCnt := k, dataRdy := false, dataEnd := true, cmdDone := true, busyFlag := false, status := 8 ||| (sChnEnd ||| sDevEnd) ||| (sDevEnd ||| sChnEnd) } : S), _, _) = _
        rfl
      show P ((Bus.Spec.poll dev _ _ _).bind _)
      rw [poll_ok (by exact e1), bk, poll_ok (by exact e2), bk]
      exact sense_end h w hold x k _ 0 rfl (fun s2 h2 => by have := hP s2 h2; rwa [List.take_zero] at this) r (by omega)
    | succ n =>
      have e1 : dev (sending b .data2 x k true) { dataTags hold with srv := true } 0 (Bus.Spec.byte x) =
          .ok (sending b .opr x k false, { conn hold with srv := true }, Bus.Spec.byte x) := by
        unfold dev
        rw [if_neg (by simp [dataTags])]
        show data2 _ _ _ = _
        unfold data2
        rw [hw', bk, if_pos (by simp)]
        unfold takeByte
        rw [if_neg (by show ¬ tst b.cmd 1 = true; rw [c1]; decide)]
        rfl
      have hfr : senseFrom b (k - 1) = x :: senseFrom b k := by
        rw [senseFrom_cons b (by omega), hxe, Nat.sub_add_cancel hk]
      rw [hfr] at hP
      show P ((Bus.Spec.accept dev _ _).bind _)
      unfold Bus.Spec.accept
      by_cases hk' : k < 6
      · have e2 : dev (sending b .opr x k false) (conn hold) 0 (Bus.Spec.byte x) = .ok (sending b .opr (senseAt b k) (k + 1) true, conn hold, Bus.Spec.byte x) := by
          unfold dev
          rw [if_neg (by simp [conn])]
          show Res.ok (opr _ _ _) = _
          unfold opr
          rw [if_neg (by simp [conn]), if_neg (by simp [sending]), hq (sending b .opr x k false) h.request]
          unfold oprSense
          rw [if_pos (by show b.cmd % 16 = 4; rw [h.cmd]), if_pos (by exact ⟨hk', h.dataEnd⟩)]
          have hm : senseAt (sending b .opr x k false) k % 256 = senseAt b k := Nat.mod_eq_of_lt (h.bytes k)
          show Res.ok ((if b.cmdDone = true then _ else { sending b .opr x k false with data := senseAt (sending b .opr x k false) k % 256, senseCnt := k + 1, dataRdy := true }), _, _) = _
          rw [h.cmdDone, if_neg (by decide), hm]
          rfl
        rw [poll_ok (by exact e1), bk, poll_ok (by exact e2), bk]
        refine hnext hk' n _ (fun x => P (x.bind _)) (fun s2 h2 => ?_)
        rw [bk]
        exact hP s2 h2
      · have e2 : dev (sending b .opr x k false) (conn hold) 0 (Bus.Spec.byte x) =
            .ok ({ b with st := .endStatus, data := x, senseCnt := k, dataRdy := false, dataEnd := true, cmdDone := true, busyFlag := false, status := 12 }, conn hold, Bus.Spec.byte x) := by
          unfold dev
          rw [if_neg (by simp [conn])]
          show Res.ok (opr _ _ _) = _
          unfold opr
          rw [if_neg (by simp [conn]), if_neg (by simp [sending]), hq (sending b .opr x k false) h.request]
          unfold oprSense
          rw [if_pos (by show b.cmd % 16 = 4; rw [h.cmd]), if_neg (by rintro ⟨q, -⟩; exact hk' q)]
          show Res.ok (({ b with st := .endStatus, data := x, senseCnt := k, dataRdy := false, dataEnd := true, cmdDone := true, busyFlag := false, status := b.status ||| (sChnEnd ||| sDevEnd) ||| (sDevEnd ||| sChnEnd) } : S), _, _) = _
          rw [h.status]
          rfl
        rw [poll_ok (by exact e1), bk, poll_ok (by exact e2), bk]
        refine sense_end h w hold x k _ n (P := fun x => P (x.bind _)) rfl (fun s2 h2 => ?_) r (by omega)
        rw [bk]
        have h6 : senseFrom b k = [] := by
          have : k = 6 := by omega
          subst this; rfl
        have := hP s2 h2
        rw [h6, List.take_succ_cons, List.take_nil] at this
        exact this
  induction j with
  | zero =>
    intro k hk hk0 want P hP r hr
    exact key k want hk0 (by omega) P hP r (by omega) (fun q => absurd q (by omega))
  | succ j ih =>
    intro k hk hk0 want P hP r hr
    refine key k want hk0 (by omega) P hP r (by omega) (fun q n bi Q hQ => ?_)
    obtain ⟨d1, d2⟩ := sense_data h hold (senseAt b k) (k + 1) bi (h.bytes k)
    have e0 : dev (sending b .opr (senseAt b k) (k + 1) true) (conn hold) 0 bi = .ok (sending b .data1 (senseAt b k) (k + 1) true, conn hold, bi) := by
      unfold dev
      rw [if_neg (by simp [conn])]
      show Res.ok (opr _ _ _) = _
      unfold opr
      rw [if_neg (by simp [conn]), if_pos (by rfl)]
      show Res.ok (({ sending b .data1 (senseAt b k) (k + 1) true with request := false } : S), _, _) = _
      rw [hq (sending b .data1 (senseAt b k) (k + 1) true) h.request]
      rfl
    have hre : Reaches 2 ⟨sending b .opr (senseAt b k) (k + 1) true, conn hold, bi⟩ ⟨sending b .data2 (senseAt b k) (k + 1) true, dataTags hold, Bus.Spec.byte (senseAt b k)⟩ :=
      ⟨h.evs, rfl, rfl, _, _, _, e0, h.evs, rfl, rfl, _, _, _, d1, rfl, d2, .inr rfl, h.evs⟩
    exact Reaches.receive w (P := Q) n (3 * j + 2) (fun r' hr' => ih (k + 1) (by omega) (by omega) n hQ r' hr') 2 r hre (by omega)

end

/-- The ending status is accepted. -/
theorem ended_ok {b s : S} (h : SenseEnd b s) (hold : Bool) (bi : Nat) :
    ∃ s' bi', ((Bus.Spec.accept dev ⟨s, endTags hold, bi⟩ 0).bind Spec.release) = .ok ⟨s', Bus.Spec.rest, bi'⟩ ∧ AtRest s' ∧ Same s s' := by
  have hr : AtRest { s with status := 0, stacked := false, cmd := 0, cmdDone := false, busyFlag := false, st := .idle, selected := false } :=
    ⟨rfl, rfl, h.over.request, rfl, rfl, rfl, h.over.rdy, h.over.evs, h.over.scan, h.over.addr, .inl h.over.statUnit⟩
  refine ⟨_, Bus.Spec.byte 12, ?_, hr.scan_to _ (scanNext_lt h.over.scan), ⟨rfl, rfl, rfl, rfl, rfl, rfl⟩⟩
  unfold Bus.Spec.accept
  have hw : withPar s.status = .ok (Bus.Spec.byte 12) := by rw [h.over.status]; exact withPar_ok 12 (by decide)
  have e1 : dev s { endTags hold with srv := true } 0 bi =
      .ok ({ s with status := 0, stacked := false, cmd := 0, cmdDone := false, busyFlag := false, st := .statusWait }, { opr := true, hld := hold, srv := true }, Bus.Spec.byte 12) := by
    unfold dev
    rw [if_neg (by simp [endTags])]
    simp only [h.st, endAccept, hw, bk]
    simp [ended, h.over.cmdDone, endTags]
  rw [poll_ok (by exact e1), bk]
  have e2 : dev { s with status := 0, stacked := false, cmd := 0, cmdDone := false, busyFlag := false, st := .statusWait } { opr := true, hld := hold } 0 (Bus.Spec.byte 12) =
      .ok ({ s with status := 0, stacked := false, cmd := 0, cmdDone := false, busyFlag := false, st := .idle, selected := false }, { opr := true, hld := hold }, Bus.Spec.byte 12) := by
    unfold dev
    rw [if_neg (by simp)]
    simp [statusWait]
  rw [poll_ok (by exact e2), bk]
  exact release_ok hr

/-- A whole sense command. -/
theorem perform_sense {s : S} {u : Nat} {d : Option Drive} (w : Spec.World) (h : AtRest s) (hu : u < 6) (hd : s.drives[u]? = some d) (h0 : s.se0 < 256) (h3 : s.se3 < 256)
    (hr : 20 ≤ w.rounds) (want bi : Nat) :
    ∃ s' bi', Spec.perform w ⟨s, Bus.Spec.rest, bi⟩ u 4 want =
        .ok ({ initial := Bus.Spec.byte 0, data := ((Spec.senseBytes s u d).take want).map Bus.Spec.byte, ending := some (Bus.Spec.byte 12) }, ⟨s', Bus.Spec.rest, bi'⟩) ∧ AtRest s' ∧ Same s s' := by
  have hdc : deviceCmd { s with tScan := scanNext s.tScan, curUnit := u, selected := true, st := .status } 4 =
      .ok { cmdPrep { s with tScan := scanNext s.tScan, curUnit := u, selected := true, st := .status } d 4 with data := s.se0, senseCnt := 1, dataRdy := true, cmdDone := false } := by
    unfold deviceCmd
    rw [if_neg (by rintro ⟨-, q, -⟩; exact q rfl)]
    simp only [hd]
    unfold cmdSwitch
    rw [if_neg (by show ¬ 4 % 16 = 0; decide), if_neg (by show ¬ (4 % 16 = 1 ∨ 4 % 16 = 5 ∨ 4 % 16 = 9 ∨ 4 % 16 = 13); decide), if_neg (by show ¬ (4 % 16 = 2 ∨ 4 % 16 = 6 ∨ 4 % 16 = 10 ∨ 4 % 16 = 14); decide), if_neg (by show ¬ 4 % 16 = 12; decide), if_pos (by show 4 % 16 = 4; decide)]
    unfold cmdTail
    rw [if_neg (by rintro ⟨q, -⟩; exact q rfl)]
    show Res.ok ({ cmdPrep { s with tScan := scanNext s.tScan, curUnit := u, selected := true, st := .status } d 4 with data := s.se0, senseCnt := 1, dataRdy := true, cmdDone := false, status := 0 ||| 0 ||| 0 } : S) = _
    rfl
  have hs1 : sense1 { s with curUnit := u } d < 256 := by
    unfold sense1
    split
    · decide
    · split
      · exact or8 (or8 (or8 (or8 (by decide) (by split <;> decide)) (by split <;> decide)) (by split <;> decide)) (by split <;> decide)
      · decide
  generalize hb : cmdPrep { s with tScan := scanNext s.tScan, curUnit := u, selected := true, st := .status } d 4 = p at hdc
  have hp0 : p.status = 0 := by rw [← hb]; rfl
  have hse : ∀ k, senseAt p k = (Spec.senseBytes s u d).getD k 0 := by
    intro k
    rw [← hb]
    match k with
    | 0 | 1 | 2 | 3 | 4 | 5 => rfl
    | k + 6 => simp [Spec.senseBytes, senseAt]
  have hbb : Sensing { p with cmdDone := false, chaining := false, status := 0 } := by
    refine ⟨by rw [← hb]; rfl, rfl, by rw [← hb]; rfl, rfl, by rw [← hb]; exact h.evs, by rw [← hb]; exact h.request, by rw [← hb]; exact h.busyFlag, ?_, by rw [← hb]; rfl, by rw [← hb]; exact scanNext_lt h.scan,
      by rw [← hb]; exact h.addr, ?_⟩
    · intro v
      rw [← hb]
      show upd s.rdy u false v = false
      unfold upd
      split
      · rfl
      · exact h.rdy v
    · intro k
      show senseAt p k < 256
      rw [hse]
      match k with
      | 0 => exact h0
      | 1 => exact hs1
      | 2 => show 3 < 256; decide
      | 3 => exact h3
      | 4 => show 0 < 256; decide
      | 5 => show 0 < 256; decide
      | k + 6 => simp [Spec.senseBytes]
  have hfr : senseFrom { p with cmdDone := false, chaining := false, status := 0 } 0 = Spec.senseBytes s u d := by
    rw [← hb]; rfl
  have e2 := select_ok h.free u 4 (by omega) (by decide) w.hold bi hdc (by rw [← hb]; rfl) (by show p.status < 256; rw [hp0]; decide)
  have hb0 : Bus.Spec.byte ({ p with data := s.se0, senseCnt := 1, dataRdy := true, cmdDone := false } : S).status = Bus.Spec.byte 0 := by
    show Bus.Spec.byte p.status = _
    rw [hp0]
  rw [hb0] at e2
  have hcmd : p.cmd = 4 := by rw [← hb]; rfl
  have hde : p.dataEnd = false := by rw [← hb]; rfl
  have e3 : Bus.Spec.accept dev ⟨{ p with data := s.se0, senseCnt := 1, dataRdy := true, cmdDone := false, st := .statusAccept }, { opr := true, hld := w.hold, oprIn := true, staIn := true }, Bus.Spec.byte 0⟩ 0 =
      .ok ⟨sending { p with cmdDone := false, chaining := false, status := 0 } .data1 s.se0 1 true, conn w.hold, Bus.Spec.byte 0⟩ := by
    unfold Bus.Spec.accept
    have a1 : dev { p with data := s.se0, senseCnt := 1, dataRdy := true, cmdDone := false, st := .statusAccept } { opr := true, hld := w.hold, oprIn := true, staIn := true, srv := true } 0 (Bus.Spec.byte 0) =
        .ok (sending { p with cmdDone := false, chaining := false, status := 0 } .opr s.se0 1 true, { conn w.hold with srv := true }, Bus.Spec.byte 0) := by
      unfold dev
      rw [if_neg (by simp)]
      show statusAccept _ _ = _
      unfold statusAccept
      have hw : withPar ({ p with data := s.se0, senseCnt := 1, dataRdy := true, cmdDone := false, st := .statusAccept } : S).status = .ok (Bus.Spec.byte 0) := by
        show withPar p.status = _
        rw [hp0]; exact withPar_ok 0 (by decide)
      rw [hw, bk]
      simp [accepted, hcmd, hde, sending, conn]
    rw [poll_ok (by exact a1), bk]
    have a2 : dev (sending { p with cmdDone := false, chaining := false, status := 0 } .opr s.se0 1 true) (conn w.hold) 0 (Bus.Spec.byte 0) =
        .ok (sending { p with cmdDone := false, chaining := false, status := 0 } .data1 s.se0 1 true, conn w.hold, Bus.Spec.byte 0) := by
      unfold dev
      rw [if_neg (by simp [conn])]
      show Res.ok (opr _ _ _) = _
      unfold opr
      rw [if_neg (by simp [conn]), if_pos (by rfl)]
      have hrq : p.request = false := hbb.request
      show Res.ok (({ sending { p with cmdDone := false, chaining := false, status := 0 } .data1 s.se0 1 true with request := false } : S), _, _) = _
      rw [show ({ sending { p with cmdDone := false, chaining := false, status := 0 } .data1 s.se0 1 true with request := false } : S) = sending { p with cmdDone := false, chaining := false, status := 0 } .data1 s.se0 1 true by
        unfold sending; rw [← hrq]]
      rfl
    exact poll_ok (by exact a2)
  have hx0 : senseAt { p with cmdDone := false, chaining := false, status := 0 } 0 = s.se0 := by rw [← hb]; rfl
  obtain ⟨d1, d2⟩ := sense_data hbb w.hold s.se0 1 (Bus.Spec.byte 0) h0
  have hre : Reaches 1 ⟨sending { p with cmdDone := false, chaining := false, status := 0 } .data1 s.se0 1 true, conn w.hold, Bus.Spec.byte 0⟩
      ⟨sending { p with cmdDone := false, chaining := false, status := 0 } .data2 s.se0 1 true, dataTags w.hold, Bus.Spec.byte s.se0⟩ :=
    ⟨hbb.evs, rfl, rfl, _, _, _, d1, rfl, d2, .inr rfl, hbb.evs⟩
  obtain ⟨s2, e4, hend⟩ := Reaches.receive w (P := fun x => ∃ s2, x = .ok (((Spec.senseBytes s u d).take want).map Bus.Spec.byte, ⟨s2, endTags w.hold, Bus.Spec.byte 12⟩) ∧
      SenseEnd { p with cmdDone := false, chaining := false, status := 0 } s2) want 17 (fun r hr => by
    have := sense_react hbb w w.hold 5 1 (by decide) (by decide) want
      (P := fun x => ∃ s2, x = .ok (((Spec.senseBytes s u d).take want).map Bus.Spec.byte, ⟨s2, endTags w.hold, Bus.Spec.byte 12⟩) ∧ SenseEnd { p with cmdDone := false, chaining := false, status := 0 } s2)
      (fun s2 h2 => ⟨s2, by rw [Nat.sub_self, hfr], h2⟩) r (by omega)
    rw [Nat.sub_self, hx0] at this
    exact this) 1 w.rounds hre (by omega)
  obtain ⟨s3, b3, e5, k1, k2⟩ := ended_ok hend w.hold (Bus.Spec.byte 12)
  refine ⟨s3, b3, ?_, k1, ⟨by rw [k2.addr, hend.same.addr, ← hb]; rfl, by rw [k2.rew, hend.same.rew, ← hb]; rfl, by rw [k2.run, hend.same.run, ← hb]; rfl, by rw [k2.drives, hend.same.drives, ← hb]; rfl,
    by rw [k2.se0, hend.same.se0, ← hb]; rfl, by rw [k2.se3, hend.same.se3, ← hb]; rfl⟩⟩
  unfold Spec.perform
  rw [e2, bk, e3, bk, if_pos (by rfl), e4, bk]
  obtain ⟨L, e6, e7⟩ := bind_ok' e5
  show (Bus.Spec.accept dev ⟨s2, endTags w.hold, Bus.Spec.byte 12⟩ 0).bind _ = _
  rw [e6, bk, e7, bk]

end Verif.Mt
