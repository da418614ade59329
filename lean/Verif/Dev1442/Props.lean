import Verif.Dev1442.ReadDeck
/-!
# Commands, reset and defects of the 1442 (C43, C44, C45, C75, C77)
-/
namespace Verif.Dev1442
open Verif.Bus
open Verif.Card (Res Img)

/-! ## C43 -/

/-- The command formats of model1442.c 41-47: write FSD00001, read 0SD00010, select FS000011, sense 00000100 (bit 0 of
the picture is 0x80), test I/O 00000000.  A command byte is reserved when no format covers it. -/
def Spec.reserved (cmd : Nat) : Prop := ¬ (cmd &&& 0x1f = 0x01 ∨ cmd &&& 0x9f = 0x02 ∨ cmd &&& 0x3f = 0x03 ∨ cmd = 4 ∨ cmd = 0)

instance (cmd : Nat) : Decidable (Spec.reserved cmd) := inferInstanceAs (Decidable (¬ _))

/-- The reserved bytes the code takes for a command: test I/O with more bits, select with the data mode bit. -/
def Spec.accepted (cmd : Nat) : Prop := cmd &&& 7 = 0 ∨ cmd &&& 0x7f = 0x23

instance (cmd : Nat) : Decidable (Spec.accepted cmd) := inferInstanceAs (Decidable (_ ∨ _))

theorem reserved_cases (cmd : Nat) (h : cmd < 256) (hr : Spec.reserved cmd) (ha : ¬ Spec.accepted cmd) :
    (cmd &&& 7 = 1 ∧ tst cmd 0x5c = true) ∨ (cmd &&& 7 = 2 ∧ tst cmd 0xdc = true) ∨ (cmd &&& 7 = 3 ∧ tst cmd 0x5c = true) ∨ (cmd &&& 7 = 4 ∧ cmd ≠ 4) ∨
      (cmd &&& 7 = 5 ∨ cmd &&& 7 = 6 ∨ cmd &&& 7 = 7) := by
  have key : ∀ c : Fin 256, Spec.reserved c → ¬ Spec.accepted c → (c.val &&& 7 = 1 ∧ tst c 0x5c = true) ∨ (c.val &&& 7 = 2 ∧ tst c 0xdc = true) ∨ (c.val &&& 7 = 3 ∧ tst c 0x5c = true) ∨ (c.val &&& 7 = 4 ∧ c.val ≠ 4) ∨
      (c.val &&& 7 = 5 ∨ c.val &&& 7 = 6 ∨ c.val &&& 7 = 7) := by decide +kernel
  exact key ⟨cmd, h⟩ hr ha

/-- The device as it answers a command it rejects. -/
def rejected (s : S) (x : Nat) : S :=
  { s with cmd := 0, dataRdy := false, dataEnd := true, feedDone := false, cmdDone := true, status := sChnEnd ||| sDevEnd ||| sUnitChk, sense := x ||| eCmdRej }

theorem deviceCmd_reject (s : S) (cmd : Nat) (h : cmd < 256)
    (hr : (cmd &&& 7 = 1 ∧ tst cmd 0x5c = true) ∨ (cmd &&& 7 = 2 ∧ tst cmd 0xdc = true) ∨ (cmd &&& 7 = 3 ∧ tst cmd 0x5c = true) ∨ (cmd &&& 7 = 4 ∧ cmd ≠ 4) ∨
      (cmd &&& 7 = 5 ∨ cmd &&& 7 = 6 ∨ cmd &&& 7 = 7)) :
    ∃ x, deviceCmd s cmd = rejected s x ∧ (x = s.sense ∨ x = s.sense &&& eInterv) := by
  have hne : ∀ y : Nat, y ||| eCmdRej ≠ 0 := by
    intro y hy
    exact absurd (Nat.or_eq_zero_iff.mp hy).2 (by decide)
  have hend : ∀ s : S, s.dataEnd = true → s.cmdDone = true → s.status = 0 → s.sense ≠ 0 →
      cmdEnd s = { s with status := sChnEnd ||| sDevEnd ||| sUnitChk } := by
    intro s h1 h2 h3 h4
    unfold cmdEnd
    simp only [h1, h2, h3, h4, if_true, ne_eq, not_false_eq_true]
    rfl
  unfold deviceCmd
  rw [Nat.mod_eq_of_lt h]
  rcases hr with ⟨h1, h2⟩ | ⟨h1, h2⟩ | ⟨h1, h2⟩ | ⟨h1, h2⟩ | h1 | h1 | h1
  · refine ⟨s.sense &&& eInterv, ?_, Or.inr rfl⟩
    simp only [h1, cmdWrite, h2, if_true]
    exact hend _ rfl rfl rfl (hne _)
  · refine ⟨s.sense &&& eInterv, ?_, Or.inr rfl⟩
    simp only [h1, cmdRead, h2, if_true]
    exact hend _ rfl rfl rfl (hne _)
  · refine ⟨s.sense &&& eInterv, ?_, Or.inr rfl⟩
    simp only [h1, cmdFeed, h2, if_true]
    exact hend _ rfl rfl rfl (hne _)
  · refine ⟨s.sense, ?_, Or.inl rfl⟩
    simp only [h1, h2, ne_eq, not_false_eq_true, if_true]
    exact hend _ rfl rfl rfl (hne _)
  all_goals
    refine ⟨s.sense, ?_, Or.inl rfl⟩
    simp only [h1]
    exact hend _ rfl rfl rfl (hne _)

/-- **C43** (part): a reserved command byte, other than the ones of `Spec.accepted`, given to a device at rest is
answered with channel end, device end and unit check; command reject is set, no card moves, nothing is started.
Missing: the bytes of `Spec.accepted`, for which the property fails. -/
theorem C43_rejected_partial (s : S) (bi cmd : Nat) (hold : Bool) (h : Spec.AtRest s) (hs : s.sense < 256) (hc : cmd < 256) (hr : Spec.reserved cmd) (ha : ¬ Spec.accepted cmd) :
    ∃ (s' : S) (t' : Tags), Spec.initialSelection dev ⟨s, Spec.rest, bi⟩ (s.addr % 256) cmd hold = .ok ⟨s', t', Spec.byte (sChnEnd ||| sDevEnd ||| sUnitChk)⟩ ∧
      t'.staIn = true ∧ t'.oprIn = true ∧ tst s'.sense eCmdRej = true ∧ s'.k = s.k ∧ s'.evs = s.evs ∧ s'.busy = false := by
  obtain ⟨x, e1, e2⟩ := deviceCmd_reject { s with disconnect := false, st := .status, selected := true, request := false } cmd hc (reserved_cases cmd hc hr ha)
  refine ⟨{ selectedWith s cmd with st := .statusAccept }, { Spec.rest with hld := hold, oprIn := true, staIn := true }, (initialSelection_eq s bi cmd hold h hs hc).trans ?_, ?_, ?_, ?_, ?_, ?_, ?_⟩
  · have : (selectedWith s cmd).status = sChnEnd ||| sDevEnd ||| sUnitChk := by unfold selectedWith; rw [e1]; rfl
    rw [this]
  · rfl
  · rfl
  · show tst (selectedWith s cmd).sense eCmdRej = true
    unfold selectedWith; rw [e1]
    show tst (x ||| eCmdRej) eCmdRej = true
    unfold tst
    have : (x ||| eCmdRej) &&& eCmdRej = eCmdRej := by
      rw [Nat.and_comm, Nat.or_comm]
      apply Nat.eq_of_testBit_eq
      intro i
      simp only [Nat.testBit_and, Nat.testBit_or]
      cases Nat.testBit eCmdRej i <;> simp
    rw [this]; decide
  · show (selectedWith s cmd).k = s.k
    unfold selectedWith; rw [e1]; rfl
  · show (selectedWith s cmd).evs = s.evs
    unfold selectedWith; rw [e1]; rfl
  · show (selectedWith s cmd).busy = false
    unfold selectedWith; rw [e1]; exact h.busy

/-- **C43**, violated: the 31 reserved bytes whose low three bits are zero are answered as test I/O: no command reject,
status zero when no sense bit is set. -/
theorem C43_violated_test_io (s : S) (bi cmd : Nat) (hold : Bool) (h : Spec.AtRest s) (hs : s.sense = 0) (hc : cmd < 256) (hr : cmd &&& 7 = 0) :
    ∃ (s' : S) (t' : Tags), Spec.initialSelection dev ⟨s, Spec.rest, bi⟩ (s.addr % 256) cmd hold = .ok ⟨s', t', Spec.byte 0⟩ ∧ t'.staIn = true ∧ s'.sense = 0 := by
  have e : (selectedWith s cmd).status = 0 ∧ (selectedWith s cmd).sense = 0 := by
    unfold selectedWith deviceCmd
    rw [Nat.mod_eq_of_lt hc]
    simp [hr, hs]
  refine ⟨{ selectedWith s cmd with st := .statusAccept }, { Spec.rest with hld := hold, oprIn := true, staIn := true }, (initialSelection_eq s bi cmd hold h (by rw [hs]; decide) hc).trans ?_, ?_, ?_⟩
  · rw [e.1]
  · rfl
  · exact e.2

example : Spec.reserved 0x08 ∧ Spec.reserved 0xf8 ∧ Spec.reserved 0x23 ∧ Spec.reserved 0xa3 ∧ Spec.reserved 0x19 ∧ ¬ Spec.accepted 0x19 ∧ ¬ Spec.reserved 0xa1 ∧ ¬ Spec.reserved 0x42 := by decide

/-- **C43**, violated: select with the reserved bit 0x20 is executed: channel end and device end, and the bit selects
stacker 2. -/
theorem C43_violated_select (s : S) (bi : Nat) (hold : Bool) (h : Spec.AtRest s) (hs : s.sense < 256) :
    ∃ (s' : S) (t' : Tags), Spec.initialSelection dev ⟨s, Spec.rest, bi⟩ (s.addr % 256) 0x23 hold = .ok ⟨s', t', Spec.byte (sChnEnd ||| sDevEnd)⟩ ∧
      t'.staIn = true ∧ tst s'.sense eCmdRej = false ∧ s'.k.stkSel = true := by
  have e : (selectedWith s 0x23).status = sChnEnd ||| sDevEnd ∧ (selectedWith s 0x23).sense = s.sense &&& eInterv ∧ (selectedWith s 0x23).k.stkSel = true := by
    simp [selectedWith, deviceCmd, cmdFeed, tst]
  refine ⟨{ selectedWith s 0x23 with st := .statusAccept }, { Spec.rest with hld := hold, oprIn := true, staIn := true }, (initialSelection_eq s bi 0x23 hold h hs (by decide)).trans ?_, ?_, ?_, ?_⟩
  · rw [e.1]
  · rfl
  · show tst (selectedWith s 0x23).sense eCmdRej = false
    rw [e.2.1]
    unfold tst
    rw [Nat.and_assoc]
    simp [eInterv, eCmdRej]
  · exact e.2.2

/-! ## C75 -/

/-- **C75**, violated: the documented stacker bit 0x40 (S of FSD00001, 0SD00010 and FS000011) is not accepted: every
command that has it is rejected. -/
theorem C75_violated_stacker_bit (s : S) (bi cmd : Nat) (hold : Bool) (h : Spec.AtRest s) (hs : s.sense < 256) (hc : cmd = 0x41 ∨ cmd = 0xc1 ∨ cmd = 0x42 ∨ cmd = 0x43 ∨ cmd = 0xc3) :
    ¬ Spec.reserved cmd ∧ ∃ (s' : S) (t' : Tags), Spec.initialSelection dev ⟨s, Spec.rest, bi⟩ (s.addr % 256) cmd hold = .ok ⟨s', t', Spec.byte (sChnEnd ||| sDevEnd ||| sUnitChk)⟩ ∧
      s'.k = s.k ∧ s'.evs = s.evs := by
  have key : ¬ Spec.reserved cmd ∧ cmd < 256 ∧ ((cmd &&& 7 = 1 ∧ tst cmd 0x5c = true) ∨ (cmd &&& 7 = 2 ∧ tst cmd 0xdc = true) ∨ (cmd &&& 7 = 3 ∧ tst cmd 0x5c = true) ∨ (cmd &&& 7 = 4 ∧ cmd ≠ 4) ∨
      (cmd &&& 7 = 5 ∨ cmd &&& 7 = 6 ∨ cmd &&& 7 = 7)) := by
    rcases hc with rfl | rfl | rfl | rfl | rfl <;> decide
  obtain ⟨hn, hlt, hr⟩ := key
  refine ⟨hn, ?_⟩
  obtain ⟨x, e1, e2⟩ := deviceCmd_reject { s with disconnect := false, st := .status, selected := true, request := false } cmd hlt hr
  refine ⟨{ (selectedWith s cmd) with st := .statusAccept }, { Spec.rest with hld := hold, oprIn := true, staIn := true }, (initialSelection_eq s bi cmd hold h hs hlt).trans ?_, ?_, ?_⟩
  · have : (selectedWith s cmd).status = sChnEnd ||| sDevEnd ||| sUnitChk := by unfold selectedWith; rw [e1]; rfl
    rw [this]
  · show (selectedWith s cmd).k = s.k
    unfold selectedWith; rw [e1]; rfl
  · show (selectedWith s cmd).evs = s.evs
    unfold selectedWith; rw [e1]; rfl

/-- **C75** (part): the bit 0x20 takes its place: a select command stores it as the stacker of the next feeds. -/
theorem C75_select_stacker_partial (s : S) (bi : Nat) (two hold : Bool) (h : Spec.AtRest s) (hs : s.sense < 256) :
    ∃ (s' : S) (t' : Tags), Spec.initialSelection dev ⟨s, Spec.rest, bi⟩ (s.addr % 256) (if two then 0x23 else 3) hold = .ok ⟨s', t', Spec.byte (sChnEnd ||| sDevEnd)⟩ ∧
      s'.k = { s.k with stkSel := two } := by
  have e : ∀ b : Bool, (selectedWith s (if b then 0x23 else 3)).status = sChnEnd ||| sDevEnd ∧ (selectedWith s (if b then 0x23 else 3)).k = { s.k with stkSel := b } := by
    intro b
    cases b <;> simp [selectedWith, deviceCmd, cmdFeed, tst]
  refine ⟨{ selectedWith s (if two then 0x23 else 3) with st := .statusAccept }, { Spec.rest with hld := hold, oprIn := true, staIn := true }, (initialSelection_eq s bi _ hold h hs (by cases two <;> decide)).trans ?_, (e two).2⟩
  rw [(e two).1]

/-- **C75**, violated: saving stacker 2 never saves or changes stacker 2. -/
theorem C75_violated_save_second (s s' : S) (h : keySave s true = .ok s') : s'.k.stk1 = s.k.stk1 ∧ keySave s true = keySave s false := by
  refine ⟨?_, rfl⟩
  unfold keySave at h
  cases hd : Card.saveDeck s.k.stk0 with
  | ok c =>
    simp only [hd, Res.bind] at h
    have := Res.ok.inj h
    rw [← this]; rfl
  | oob => simp [hd, Res.bind] at h
  | fuel => simp [hd, Res.bind] at h

/-! ## C78 -/

/-- The channel runs a sense command: selection, status accepted, one byte taken, ending status accepted. Gives the
initial status, the byte and the ending status. -/
def Spec.senseCommand (L : Spec.Link S) (addr : Nat) (hold : Bool) : Res (Spec.Link S × Nat × Nat × Nat) :=
  (Spec.initialSelection dev L addr 4 hold).bind fun L1 =>
  (Spec.accept dev L1 0).bind fun L2 =>
  (Spec.poll dev L2 id 0).bind fun L3 =>
  (Spec.accept dev L3 0).bind fun L4 =>
  (Spec.poll dev L4 id 0).bind fun L5 =>
  (Spec.accept dev L5 0).bind fun L6 => .ok (L6, L1.bi, L3.bi, L5.bi)

/-- **C78**: a sense command to a device at rest gives zero initial status, the sense byte with good parity, then channel
end and device end; the device is at rest again with the interface free, and no card moved. -/
theorem C78_sense (s : S) (bi : Nat) (hold : Bool) (h : Spec.AtRest s) (hs : s.sense < 256) :
    ∃ s', Spec.senseCommand ⟨s, Spec.rest, bi⟩ (s.addr % 256) hold =
        .ok (⟨s', { Spec.rest with hld := hold }, Spec.byte (sChnEnd ||| sDevEnd)⟩, Spec.byte 0, Spec.byte s.sense, Spec.byte (sChnEnd ||| sDevEnd)) ∧
      Spec.AtRest s' ∧ s'.k = s.k ∧ s'.evs = s.evs ∧ s'.sense = s.sense := by
  let b : S := { s with st := .opr, addr := s.addr, request := false, stacked := false, selected := true, disconnect := false, busy := false, cmd := 4, status := 0, data := s.sense, cmdDone := false, dataRdy := true, dataEnd := false, feedDone := false }
  have e0 : selectedWith s 4 = { b with st := .status } := by
    show _ = { b with st := .status }
    simp [selectedWith, deviceCmd, b, h.stacked, h.busy]
  have hb : b.status = 0 := rfl
  have p1 := initialSelection_eq s bi 4 hold h hs (by decide)
  rw [e0] at p1
  have p2 : Spec.accept dev ⟨{ b with st := .statusAccept }, { Spec.rest with hld := hold, oprIn := true, staIn := true }, Spec.byte 0⟩ 0 =
      .ok ⟨{ b with st := .data1 }, { Spec.rest with hld := hold, oprIn := true }, Spec.byte 0⟩ := by
    unfold Spec.accept
    refine bind_ok (poll_ok (s := b) (t := { Spec.rest with hld := hold, oprIn := true, srv := true }) (bi := Spec.byte 0) ?_) rfl
    simp [dev, statusAccept, statusAccepted, b, Spec.rest, withPar_ok 0 (by decide), Res.bind]
  have p3 : Spec.poll dev ⟨{ b with st := .data1 }, { Spec.rest with hld := hold, oprIn := true }, Spec.byte 0⟩ id 0 =
      .ok ⟨{ b with st := .data2 }, { Spec.rest with hld := hold, oprIn := true, srvIn := true }, Spec.byte s.sense⟩ := by
    apply poll_ok
    simp [dev, data1, b, Spec.rest, withPar_ok _ hs, Res.bind]
  have p4 : Spec.accept dev ⟨{ b with st := .data2 }, { Spec.rest with hld := hold, oprIn := true, srvIn := true }, Spec.byte s.sense⟩ 0 =
      .ok ⟨{ b with st := .endStatus, dataRdy := false, dataEnd := true, cmdDone := true, status := sChnEnd ||| sDevEnd }, { Spec.rest with hld := hold, oprIn := true }, Spec.byte s.sense⟩ := by
    unfold Spec.accept
    refine bind_ok (poll_ok (s := { b with dataRdy := false, disconnect := true }) (t := { Spec.rest with hld := hold, oprIn := true, srv := true }) (bi := Spec.byte s.sense) ?_) (poll_ok ?_)
    · simp [dev, data2, takeByte, b, Spec.rest, withPar_ok _ hs, Res.bind, tst]
    · simp [dev, opr, oprIdle, b, Spec.rest]
  have p5 : Spec.poll dev ⟨{ b with st := .endStatus, dataRdy := false, dataEnd := true, cmdDone := true, status := sChnEnd ||| sDevEnd }, { Spec.rest with hld := hold, oprIn := true }, Spec.byte s.sense⟩ id 0 =
      .ok ⟨{ b with st := .endAccept, dataRdy := false, dataEnd := true, cmdDone := true, status := sChnEnd ||| sDevEnd }, { Spec.rest with hld := hold, oprIn := true, staIn := true }, Spec.byte (sChnEnd ||| sDevEnd)⟩ := by
    apply poll_ok
    simp [dev, endStatus, b, Spec.rest, withPar_ok (sChnEnd ||| sDevEnd) (by decide), Res.bind]
  have p6 : Spec.accept dev ⟨{ b with st := .endAccept, dataRdy := false, dataEnd := true, cmdDone := true, status := sChnEnd ||| sDevEnd }, { Spec.rest with hld := hold, oprIn := true, staIn := true }, Spec.byte (sChnEnd ||| sDevEnd)⟩ 0 =
      .ok ⟨{ b with st := .idle, cmd := 0, selected := false, dataRdy := false, status := 0 }, { Spec.rest with hld := hold }, Spec.byte (sChnEnd ||| sDevEnd)⟩ := by
    unfold Spec.accept
    refine bind_ok (poll_ok (s := { b with st := .statusWait, cmd := 0, dataRdy := false, status := 0 }) (t := { Spec.rest with hld := hold, srv := true }) (bi := Spec.byte (sChnEnd ||| sDevEnd)) ?_) (poll_ok ?_)
    · simp [dev, endAccept, endAccepted, b, Spec.rest, withPar_ok (sChnEnd ||| sDevEnd) (by decide), Res.bind]
    · simp [dev, statusWait, b, Spec.rest]
  exact ⟨{ b with st := .idle, cmd := 0, selected := false, dataRdy := false, status := 0 }, bind_ok p1 (bind_ok p2 (bind_ok p3 (bind_ok p4 (bind_ok p5 (bind_ok p6 rfl))))), ⟨rfl, rfl, rfl, rfl⟩, rfl, rfl, rfl⟩

/-! ## C44: the data register -/

/-- The channel starts a write command and gives it one byte; then the punch asks for the next. -/
def Spec.writeOne (L : Spec.Link S) (addr v : Nat) : Res (Spec.Link S) :=
  (Spec.initialSelection dev L addr 1 true).bind fun L1 =>
  (Spec.accept dev L1 0).bind fun L2 =>
  (Spec.poll dev L2 id 0).bind fun L3 =>
  (Spec.accept dev L3 (Spec.byte v)).bind fun L4 =>
  (Spec.fire L4 .write).bind fun L5 =>
  (Spec.poll dev L5 id 0).bind fun L6 =>
  Spec.poll dev L6 id 0

/-- **C44**, violated: when a byte with its parity bit on is written, the device indexes its parity table with the nine
bit value as soon as the next byte is asked for: an access outside the table. -/
theorem C44_violated_write_byte (s : S) (bi v : Nat) (h : Spec.AtRest s) (hi : Inv s) (he : s.evs = []) (hp : s.k.pchFull = true) (hd : s.data < 256)
    (hv : v < 256) (hpar : Xlat.ones 8 v % 2 = 0) : Spec.writeOne ⟨s, Spec.rest, bi⟩ (s.addr % 256) v = .oob := by
  let b : S := { s with st := .opr, request := false, stacked := false, selected := true, disconnect := false, busy := true, sense := s.sense &&& eInterv, cmd := 1, status := 0, cmdDone := false, dataRdy := true, dataEnd := false, feedDone := false, evs := [.write], k := { s.k with stkSel := false } }
  have e0 : selectedWith s 1 = { b with st := .status } := by
    show _ = { b with st := .status }
    simp [selectedWith, deviceCmd, cmdWrite, cmdEnd, addEv, tst, b, h.stacked, he, hp]
  have hb : b.status = 0 := rfl
  have hbig : 256 ≤ Spec.byte v := by unfold Spec.byte; rw [if_pos hpar]; omega
  have p1 := initialSelection_eq s bi 1 true h hi.sense (by decide)
  rw [e0] at p1
  have p2 : Spec.accept dev ⟨{ b with st := .statusAccept }, { Spec.rest with hld := true, oprIn := true, staIn := true }, Spec.byte 0⟩ 0 =
      .ok ⟨{ b with st := .data1 }, held, Spec.byte 0⟩ := by
    unfold Spec.accept
    refine bind_ok (poll_ok (s := b) (t := { held with srv := true }) (bi := Spec.byte 0) ?_) rfl
    simp [dev, statusAccept, statusAccepted, b, held, Spec.rest, withPar_ok 0 (by decide), Res.bind]
  have p3 : Spec.poll dev ⟨{ b with st := .data1 }, held, Spec.byte 0⟩ id 0 =
      .ok ⟨{ b with st := .data2 }, { held with srvIn := true }, Spec.byte s.data⟩ := by
    apply poll_ok
    simp [dev, data1, b, held, Spec.rest, withPar_ok _ hd, Res.bind]
  have p4 : Spec.accept dev ⟨{ b with st := .data2 }, { held with srvIn := true }, Spec.byte s.data⟩ (Spec.byte v) =
      .ok ⟨{ b with dataRdy := false, data := Spec.byte v }, held, Spec.byte s.data⟩ := by
    unfold Spec.accept
    refine bind_ok (poll_ok (s := { b with dataRdy := false, disconnect := true, data := Spec.byte v }) (t := { held with srv := true }) (bi := Spec.byte s.data) ?_) rfl
    simp [dev, data2, takeByte, b, held, Spec.rest, withPar_ok _ hd, Res.bind, tst, parBad_byte _ hv]
  have hinv : Inv { b with dataRdy := false, data := Spec.byte v, evs := [] } := ⟨z8, and8 hi.sense, hi.k.stkSel false⟩
  obtain ⟨s5, f1, f2⟩ : ∃ s5, writeCb { b with dataRdy := false, data := Spec.byte v, evs := [] } = .ok s5 ∧ (s5.st = .opr ∧ s5.dataRdy = true ∧ s5.data = Spec.byte v) := by
    obtain ⟨s5, f1, -⟩ := writeCb_spec hinv
    refine ⟨s5, f1, ?_⟩
    unfold writeCb at f1
    rw [if_neg (by simp)] at f1
    cases hq : punchCol { b with dataRdy := false, data := Spec.byte v, evs := [] } with
    | ok s4 =>
      rw [hq] at f1
      have h4 : s4.st = .opr ∧ s4.data = Spec.byte v := by
        unfold punchCol at hq
        split at hq
        · cases h1 : Card.getCol b.k.pchCard b.k.pchCol with
          | ok o =>
            simp only [h1, Res.bind] at hq
            cases h2 : Card.look (Card.ebcdicToHol (Spec.byte v % 256)) with
            | ok hh =>
              simp only [h2] at hq
              cases h3 : Card.setCol b.k.pchCard b.k.pchCol (o ||| hh) with
              | ok img =>
                simp only [h3] at hq
                have := Res.ok.inj hq
                rw [← this]; exact ⟨rfl, rfl⟩
              | oob => simp [h3] at hq
              | fuel => simp [h3] at hq
            | oob => simp [h2] at hq
            | fuel => simp [h2] at hq
          | oob => simp [h1, Res.bind] at hq
          | fuel => simp [h1, Res.bind] at hq
        · have := Res.ok.inj hq
          rw [← this]; exact ⟨rfl, rfl⟩
      have := Res.ok.inj f1
      rw [← this]
      exact ⟨h4.1, rfl, h4.2⟩
    | oob => rw [hq] at f1; cases f1
    | fuel => rw [hq] at f1; cases f1
  obtain ⟨g1, g2, g3⟩ := f2
  have p5 : Spec.fire ⟨{ b with dataRdy := false, data := Spec.byte v }, held, Spec.byte s.data⟩ .write = .ok ⟨s5, held, Spec.byte s.data⟩ := by
    unfold Spec.fire
    exact bind_ok f1 rfl
  have p6 : Spec.poll dev ⟨s5, held, Spec.byte s.data⟩ id 0 = .ok ⟨{ s5 with request := false, st := .data1 }, held, Spec.byte s.data⟩ := by
    apply poll_ok
    simp [dev, g1, opr, g2, held, Spec.rest]
  have p7 : Spec.poll dev ⟨{ s5 with request := false, st := .data1 }, held, Spec.byte s.data⟩ id 0 = .oob := by
    unfold Spec.poll
    simp [dev, data1, held, Spec.rest, g3, withPar_oob _ hbig, Res.bind]
  exact bind_ok p1 (bind_ok p2 (bind_ok p3 (bind_ok p4 (bind_ok p5 (bind_ok p6 p7)))))

/-! ## C45 -/

/-- A device that is neither idle nor answering busy is selected. -/
def SelInv (s : S) : Prop := s.st ≠ .idle → s.st ≠ .busy → s.selected = true

theorem takeByte_sel (s : S) (bo : Nat) : (takeByte s bo).selected = s.selected ∧ (takeByte s bo).st = s.st := by
  unfold takeByte; split
  · split <;> exact ⟨rfl, rfl⟩
  · exact ⟨rfl, rfl⟩

theorem deviceStop_sel (s : S) : (deviceStop s).selected = s.selected ∧ (deviceStop s).st = s.st := by
  unfold deviceStop addEv cancelEv
  simp only
  split
  · split <;> exact ⟨rfl, rfl⟩
  · split <;> exact ⟨rfl, rfl⟩

theorem dev_selInv {s s' : S} {t t' : Tags} {bo bi bi' : Nat} (h : SelInv s) (hd : dev s t bo bi = .ok (s', t', bi')) : SelInv s' := by
  have key : s'.selected = true ∨ s'.st = .idle ∨ s'.st = .busy := by
    unfold dev at hd
    split at hd
    · simp only [Res.ok.injEq, Prod.mk.injEq] at hd
      rw [← hd.1]; exact Or.inr (Or.inl rfl)
    · cases hs : s.st <;> rw [hs] at hd <;> simp only [Res.ok.injEq] at hd
      · unfold idle idleAddressed at hd
        simp only at hd
        repeat' split at hd
        all_goals
          simp only [Prod.mk.injEq] at hd
          rw [← hd.1]
          first | exact Or.inl rfl | exact Or.inr (Or.inl hs) | exact Or.inr (Or.inr rfl)
      · unfold busyState at hd
        simp only at hd
        repeat' split at hd
        all_goals
          simp only [Prod.mk.injEq] at hd
          rw [← hd.1]
          first | exact Or.inr (Or.inl rfl) | exact Or.inr (Or.inr hs)
      all_goals have hsel : s.selected = true := h (by rw [hs]; simp) (by rw [hs]; simp)
      · unfold initSel at hd
        simp only at hd
        repeat' split at hd
        all_goals
          simp only [Prod.mk.injEq] at hd
          rw [← hd.1]; exact Or.inl hsel
      · unfold command commandOut at hd
        simp only at hd
        repeat' split at hd
        all_goals
          simp only [Prod.mk.injEq] at hd
          rw [← hd.1]
          first
          | exact Or.inl hsel
          | exact Or.inl ((deviceCmd_st _ _).2.2.1.trans hsel)
          | (split
             · first | exact Or.inl hsel | exact Or.inl ((deviceCmd_st _ _).2.2.1.trans hsel)
             · exact Or.inl hsel)
      · unfold status at hd
        cases hw : withPar s.status with
        | ok b =>
          rw [hw] at hd
          simp only [Res.bind, Res.ok.injEq, Prod.mk.injEq] at hd
          rw [← hd.1]; exact Or.inl hsel
        | oob => rw [hw] at hd; cases hd
        | fuel => rw [hw] at hd; cases hd
      · unfold statusAccept statusAccepted at hd
        cases hw : withPar s.status with
        | ok b =>
          rw [hw] at hd
          simp only [Res.bind] at hd
          repeat' split at hd
          all_goals
            simp only [Res.ok.injEq, Prod.mk.injEq] at hd
            rw [← hd.1]; exact Or.inl hsel
        | oob => rw [hw] at hd; cases hd
        | fuel => rw [hw] at hd; cases hd
      · unfold statusWait at hd
        simp only at hd
        repeat' split at hd
        all_goals
          simp only [Prod.mk.injEq] at hd
          rw [← hd.1]
          first | exact Or.inl hsel | exact Or.inr (Or.inl rfl)
      · unfold endStatus at hd
        cases hw : withPar s.status with
        | ok b =>
          rw [hw] at hd
          simp only [Res.bind] at hd
          repeat' split at hd
          all_goals
            simp only [Res.ok.injEq, Prod.mk.injEq] at hd
            rw [← hd.1]; exact Or.inl hsel
        | oob =>
          rw [hw] at hd
          simp only [Res.bind] at hd
          split at hd
          · simp only [Res.ok.injEq, Prod.mk.injEq] at hd
            rw [← hd.1]; exact Or.inl hsel
          · cases hd
        | fuel =>
          rw [hw] at hd
          simp only [Res.bind] at hd
          split at hd
          · simp only [Res.ok.injEq, Prod.mk.injEq] at hd
            rw [← hd.1]; exact Or.inl hsel
          · cases hd
      · unfold endAccept endAccepted at hd
        cases hw : withPar s.status with
        | ok b =>
          rw [hw] at hd
          simp only [Res.bind] at hd
          repeat' split at hd
          all_goals
            simp only [Res.ok.injEq, Prod.mk.injEq] at hd
            rw [← hd.1]; exact Or.inl hsel
        | oob => rw [hw] at hd; cases hd
        | fuel => rw [hw] at hd; cases hd
      · unfold waitDevend at hd
        simp only at hd
        repeat' split at hd
        all_goals
          simp only [Prod.mk.injEq] at hd
          rw [← hd.1]; exact Or.inl hsel
      · unfold opr oprIdle at hd
        simp only at hd
        repeat' split at hd
        all_goals
          simp only [Prod.mk.injEq] at hd
          rw [← hd.1]
          first | exact Or.inl hsel | exact Or.inr (Or.inl rfl)
      · unfold data1 at hd
        simp only at hd
        split at hd
        · simp only [Res.ok.injEq, Prod.mk.injEq] at hd
          rw [← hd.1]; exact Or.inl hsel
        · split at hd
          · simp only [Res.ok.injEq, Prod.mk.injEq] at hd
            rw [← hd.1]; exact Or.inl hsel
          · cases hw : withPar s.data with
            | ok b =>
              rw [hw] at hd
              simp only [Res.bind, Res.ok.injEq, Prod.mk.injEq] at hd
              rw [← hd.1]; exact Or.inl hsel
            | oob => rw [hw] at hd; cases hd
            | fuel => rw [hw] at hd; cases hd
      · unfold data2 at hd
        cases hw : withPar s.data with
        | ok b =>
          rw [hw] at hd
          simp only [Res.bind] at hd
          have ht : ({ takeByte { s with dataRdy := false } bo with st := .opr } : S).selected = true := (takeByte_sel _ _).1.trans hsel
          split at hd
          · simp only [Res.ok.injEq, Prod.mk.injEq] at hd
            rw [← hd.1]
            split
            · exact Or.inl ((deviceStop_sel _).1.trans ht)
            · exact Or.inl ht
          · simp only [Res.ok.injEq, Prod.mk.injEq] at hd
            rw [← hd.1]; exact Or.inl hsel
        | oob => rw [hw] at hd; cases hd
        | fuel => rw [hw] at hd; cases hd
  intro h1 h2
  rcases key with k | k | k
  · exact k
  · exact absurd k h1
  · exact absurd k h2

theorem feed_sel {s s' : S} (h : feed s = .ok s') : s'.st = s.st ∧ s'.selected = s.selected := by
  rw [feed_frame h]; exact ⟨rfl, rfl⟩

theorem bind_inv {α β : Type} {x : Res α} {f : α → Res β} {b : β} (h : x.bind f = .ok b) : ∃ a, x = .ok a ∧ f a = .ok b := by
  cases x with
  | ok a => exact ⟨a, rfl, h⟩
  | oob => cases h
  | fuel => cases h

/-- Events and keys leave the interface state alone. -/
theorem step_sel {s s' : S} {o : Op} (h : step s o = .ok s') (hb : ∀ t bo bi, o ≠ .bus t bo bi) : s'.st = s.st ∧ s'.selected = s.selected := by
  cases o with
  | bus t bo bi => exact absurd rfl (hb t bo bi)
  | fire c =>
    unfold step at h
    simp only at h
    split at h
    · cases c with
      | read =>
        simp only at h
        unfold readCb at h
        split at h
        · have := Res.ok.inj h; rw [← this]; exact ⟨rfl, rfl⟩
        · split at h
          · split at h
            · obtain ⟨a, -, h⟩ := bind_inv h
              obtain ⟨b, -, h⟩ := bind_inv h
              have := Res.ok.inj h; rw [← this]
              simp only
              split <;> exact ⟨rfl, rfl⟩
            · have := Res.ok.inj h; rw [← this]; exact ⟨rfl, rfl⟩
          · have := Res.ok.inj h; rw [← this]; exact ⟨rfl, rfl⟩
      | write =>
        simp only at h
        unfold writeCb at h
        split at h
        · have := Res.ok.inj h; rw [← this]
          unfold writeOverrun
          simp only
          split <;> exact ⟨rfl, rfl⟩
        · obtain ⟨a, ha, h⟩ := bind_inv h
          have := Res.ok.inj h; rw [← this]
          unfold punchCol at ha
          split at ha
          · obtain ⟨a, -, ha⟩ := bind_inv ha
            obtain ⟨b, -, ha⟩ := bind_inv ha
            obtain ⟨c, -, ha⟩ := bind_inv ha
            have := Res.ok.inj ha; rw [← this]; exact ⟨rfl, rfl⟩
          · have := Res.ok.inj ha; rw [← this]; exact ⟨rfl, rfl⟩
      | feed =>
        simp only at h
        unfold feedCb at h
        simp only at h
        split at h
        · have := feed_sel h; exact this
        · obtain ⟨a, ha, h⟩ := bind_inv h
          have h1 := feed_sel ha
          have := Res.ok.inj h; rw [← this]
          split <;> exact h1
    · have := Res.ok.inj h; rw [← this]; exact ⟨rfl, rfl⟩
  | eofKey => have := Res.ok.inj h; rw [← this]; exact ⟨rfl, rfl⟩
  | startKey =>
    unfold step keyStart at h
    simp only at h
    split at h
    · obtain ⟨a, ha, h⟩ := bind_inv h
      have h1 : a.st = s.st ∧ a.selected = s.selected := by
        split at ha
        · exact feed_sel ha
        · have := Res.ok.inj ha; rw [← this]; exact ⟨rfl, rfl⟩
      have := Res.ok.inj h; rw [← this]
      unfold counts
      simp only
      split <;> exact h1
    · have := Res.ok.inj h; rw [← this]; exact ⟨rfl, rfl⟩
  | nproKey =>
    unfold step keyNpro at h
    simp only at h
    obtain ⟨a, ha, h⟩ := bind_inv h
    have h1 := feed_sel ha
    have := Res.ok.inj h; rw [← this]; exact h1
  | stopKey => have := Res.ok.inj h; rw [← this]; exact ⟨rfl, rfl⟩

theorem run_selInv {s s' : S} (ops : List Op) (h : SelInv s) (hr : run s ops = .ok s') : SelInv s' := by
  induction ops generalizing s with
  | nil => have := Res.ok.inj hr; rw [← this]; exact h
  | cons o os ih =>
    unfold run at hr
    obtain ⟨s1, h1, h2⟩ := bind_inv hr
    refine ih ?_ h2
    by_cases hb : ∃ t bo bi, o = .bus t bo bi
    · obtain ⟨t, bo, bi, rfl⟩ := hb
      obtain ⟨⟨s2, t2, b2⟩, h3, h4⟩ := bind_inv (show (dev s t bo bi).bind (fun r => .ok r.1) = .ok s1 from h1)
      have := Res.ok.inj h4
      rw [← this]
      exact dev_selInv h h3
    · obtain ⟨e1, e2⟩ := step_sel h1 (fun t bo bi hq => hb ⟨t, bo, bi, hq⟩)
      intro q1 q2
      rw [e2]; exact h (by rw [← e1]; exact q1) (by rw [← e1]; exact q2)

/-- **C45** (part): after any history of a new device, dropping operational out and suppress out returns it to idle, and
drops all of its in-tags unless it was idle or answering busy.  Missing: the answer busy, see
`C45_violated_busy`. -/
theorem C45_reset_partial (addr : Nat) (ops : List Op) (s : S) (hr : run (init addr) ops = .ok s) (t : Tags) (bo bi : Nat) (ho : t.opr = false) (hs : t.sup = false) :
    ∃ s' t', dev s t bo bi = .ok (s', t', bi) ∧ s'.st = .idle ∧ s'.busy = false ∧ s'.request = false ∧ s'.selected = false ∧ s'.status = 0 ∧ s'.sense = 0 ∧ Spec.outKept t t' ∧
      (s.st ≠ .idle → s.st ≠ .busy → Spec.inDown t') := by
  have hi : SelInv s := run_selInv ops (fun h => absurd rfl h) hr
  refine ⟨reset s, if s.selected then { t with oprIn := false, adrIn := false, srvIn := false, staIn := false } else t, ?_, rfl, rfl, rfl, rfl, rfl, rfl, ?_, ?_⟩
  · unfold dev; rw [if_pos ⟨ho, hs⟩]
  · split <;> simp [Spec.outKept]
  · intro h1 h2
    rw [hi h1 h2]
    exact ⟨rfl, rfl, rfl, rfl⟩

/-- **C45**, violated: a device that is addressed while it is busy raises status in; when operational out then drops, it
goes to idle and leaves status in up. -/
theorem C45_violated_busy (s : S) (bi : Nat) (hs : s.st = .idle) (hb : s.busy = true) (hn : s.selected = false) :
    ∃ L1 L2 : Spec.Link S, Spec.poll dev ⟨s, Spec.rest, bi⟩ (fun t => { t with adr := true, sel := true }) (Spec.byte (s.addr % 256)) = .ok L1 ∧ L1.t.staIn = true ∧
      Spec.poll dev L1 (fun t => { t with adr := false, opr := false }) 0 = .ok L2 ∧ L2.s.st = .idle ∧ L2.t.staIn = true := by
  have ha : s.addr % 256 < 256 := Nat.mod_lt _ (by decide)
  have p1 : dev s { Spec.rest with adr := true, sel := true } (Spec.byte (s.addr % 256)) bi =
      .ok ({ s with disconnect := false, st := .busy }, { Spec.rest with adr := true, staIn := true }, bytePar sBusy) := by
    unfold dev
    rw [if_neg (by simp [Spec.rest]), hs]
    simp [idle, idleRequest, idleAddressed, Spec.rest, byte_mod _ ha, parBad_byte _ ha, hb]
    cases s.request <;> cases s.stacked <;> rfl
  refine ⟨_, ⟨reset { s with disconnect := false, st := .busy }, { Spec.rest with opr := false, staIn := true }, bytePar sBusy⟩, poll_ok p1, rfl, poll_ok ?_, rfl, rfl⟩
  simp [dev, Spec.rest, hn]

/-! ## C79 -/

/-- **C79**, violated: a reset does not cancel the feed of the command it ends: when its event fires the cards move and
the device asks for service with device end. -/
theorem C79_violated_feed_after_reset (s : S) (t : Tags) (bo bi : Nat) (h : Inv s) (ho : t.opr = false ∧ t.sup = false) (he : s.evs = [.feed]) (c : Img) (q : List Img)
    (hq : (path s.k).hopper = c :: q) (hc : s.k.hopCnt ≠ 0) (hst : s.k.stop = false) :
    ∃ s1 t1 s2, dev s t bo bi = .ok (s1, t1, bi) ∧ s1.st = .idle ∧ step s1 (.fire .feed) = .ok s2 ∧
      path s2.k = Spec.feed (path s.k) s.k.stkSel false ∧ s2.request = true ∧ tst s2.status sDevEnd = true := by
  have hinv : Inv { reset s with evs := [], status := 0 ||| sDevEnd, busy := false, cmdDone := true, feedDone := true, request := true } :=
    ⟨show 0 ||| sDevEnd < 256 from by decide, z8, h.k⟩
  obtain ⟨s2, f1, f2, f3, f4, -⟩ := feed_cards hinv hq hst
  have f0 := feed_frame f1
  have hstep : step (reset s) (.fire .feed) = .ok (if s2.sense ≠ 0 then { s2 with status := s2.status ||| sUnitChk } else s2) := by
    have hf : step (reset s) (.fire .feed) = feedCb { reset s with evs := [] } := by
      have : Cb.feed ∈ (reset s).evs := by show Cb.feed ∈ s.evs; rw [he]; simp
      unfold step
      simp only [this, if_true]
      have : (reset s).evs.erase .feed = [] := by show s.evs.erase .feed = []; rw [he]; rfl
      rw [this]
    rw [hf]
    unfold feedCb
    simp only
    rw [if_neg (fun hx => hc hx.1)]
    exact bind_ok f1 rfl
  refine ⟨reset s, _, _, by unfold dev; rw [if_pos ho], rfl, hstep, ?_, ?_, ?_⟩
  · split <;> exact f4
  · rw [f0]; split <;> rfl
  · have f3' : s2.status = 4 := f3
    split
    · show tst (s2.status ||| sUnitChk) sDevEnd = true
      rw [f3']; decide
    · rw [f3']; decide

/-- **C79**, violated: a reset does not forget stacked status: the device asks for service again. -/
theorem C79_violated_stacked (s : S) (t : Tags) (bo bi : Nat) (ho : t.opr = false ∧ t.sup = false) (hk : s.stacked = true) :
    ∃ s1 t1 s2 t2, dev s t bo bi = .ok (s1, t1, bi) ∧ dev s1 Spec.rest 0 bi = .ok (s2, t2, bi) ∧ t2.reqIn = true := by
  refine ⟨reset s, _, { reset s with disconnect := false }, { Spec.rest with reqIn := true }, by unfold dev; rw [if_pos ho], ?_, rfl⟩
  simp [dev, reset, idle, idleRequest, Spec.rest, hk]

/-! ## C77 -/

/-- **C77**, violated: when the last card of a deck was read with end of file pressed, it stays at the read station, and
the operator's run-out key does not move it or the card before it either. -/
theorem C77_violated_last_card_stays (s : S) (bi cmd : Nat) (hc : cmd = 2 ∨ cmd = 0x22) (c : Img) (h : Spec.Loaded s c []) (he : s.k.eof = true) :
    ∃ L g s2, Spec.readCard ⟨s, Spec.rest, bi⟩ (s.addr % 256) cmd = .ok (L, g) ∧ (path L.s.k).reader = some c ∧
      step L.s .nproKey = .ok s2 ∧ path s2.k = path s.k := by
  obtain ⟨s', vs, e1, e2, e3, e4, e5, e6, e7⟩ := C76_read_last s bi cmd hc c h he
  obtain ⟨s2, f1, f2, f3, f4⟩ := feed_spec e3
  have hn : s'.k.hop.hopper = [] := by
    have : (path s'.k).hopper = [] := by rw [e7]; exact h.hopper
    exact this
  rw [if_pos ⟨hn, e6⟩] at f4
  refine ⟨_, _, counts { s2 with k := { s2.k with eof := false } }, e1, ?_, bind_ok f1 rfl, ?_⟩
  · show (path s'.k).reader = _
    rw [e7]; exact h.reader
  · show path s2.k = _
    rw [f4, e7]

end Verif.Dev1442
