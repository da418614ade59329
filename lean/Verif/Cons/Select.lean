import Verif.Cons.Dev
/-!
# Commands of the 1052 as the channel sees them (C81, C82, C86)
-/
namespace Verif.Cons
open Verif.Bus
open Verif.Card (Res)

/-- A console at rest: nothing in progress, no status and no attention waiting. -/
structure Spec.AtRest (s : S) : Prop where
  st : s.st = .idle
  busy : s.busy = false
  stacked : s.stacked = false
  status : s.status = 0
  attn : s.t.attn = false

/-- The console after a command was decoded in initial selection. -/
def selectedWith (s : S) (cmd : Nat) : S :=
  deviceCmd { s with st := .status, selected := true, request := false } cmd

theorem deviceCmd_mod (s : S) (b : Nat) (v : Nat) (h : b % 256 = v % 256) : deviceCmd s b = deviceCmd s v := by
  unfold deviceCmd; rw [h]

theorem signals_attn (t : T) (tags : Nat) (h : t.attn = false) : (signals t tags).attn = false := by
  unfold signals clear
  simp only
  repeat' split
  all_goals first | exact h | rfl

theorem func_attn (t : T) (tags : Nat) (h : t.attn = false) : (func t tags).1.attn = false := by
  unfold func
  split
  · exact h
  · simp only
    split <;> exact signals_attn t tags h

theorem deviceCmd_st (s : S) (b : Nat) (hb : s.busy = false) : (deviceCmd s b).st = s.st ∧ (deviceCmd s b).addr = s.addr ∧ (deviceCmd s b).selected = s.selected ∧ (deviceCmd s b).request = s.request ∧ (deviceCmd s b).stacked = false ∧ (s.t.attn = false → (deviceCmd s b).t.attn = false) ∧ (deviceCmd s b).status < 256 := by
  unfold deviceCmd invalid
  rw [if_neg (by simp [hb])]
  simp only
  repeat' split
  all_goals
    refine ⟨rfl, rfl, rfl, rfl, rfl, fun h => ?_, by first | (simp only [signal]; decide) | (simp only; decide)⟩
    first | exact h | exact func_attn _ _ h

theorem initialSelection_eq (s : S) (bi cmd : Nat) (hold : Bool) (h : Spec.AtRest s) (hc : cmd < 256) :
    Bus.Spec.initialSelection dev ⟨s, Bus.Spec.rest, bi⟩ (s.addr % 256) cmd hold =
      .ok ⟨{ selectedWith s cmd with st := .statusAccept }, { Bus.Spec.rest with hld := hold, oprIn := true, staIn := true }, Bus.Spec.byte (selectedWith s cmd).status⟩ := by
  have ha : s.addr % 256 < 256 := Nat.mod_lt _ (by decide)
  have p1 : (dev s { Bus.Spec.rest with adr := true, sel := true, hld := hold } (Bus.Spec.byte (s.addr % 256)) bi) =
      .ok ({ s with st := .initSel, selected := true }, { Bus.Spec.rest with adr := true, hld := hold, oprIn := true }, bytePar s.addr) := by
    unfold dev
    rw [if_neg (by simp [Bus.Spec.rest]), h.st]
    simp [idle, idleAddressed, Bus.Spec.rest, h.stacked, byte_mod _ ha, parBad_byte _ ha, h.busy]
  obtain ⟨q1, q2, q3, q4, q5, q6, q7⟩ := deviceCmd_st { s with st := .status, selected := true, request := false } cmd h.busy
  have p3 : deviceCmd { s with st := .status, selected := true, request := false } (Bus.Spec.byte cmd) = selectedWith s cmd :=
    deviceCmd_mod _ _ _ (by rw [byte_mod _ hc, Nat.mod_eq_of_lt hc])
  have p2 : dev { s with st := .initSel, selected := true } { Bus.Spec.rest with hld := hold, oprIn := true } (Bus.Spec.byte (s.addr % 256)) (bytePar s.addr) =
      .ok ({ s with st := .command, selected := true }, { Bus.Spec.rest with hld := hold, oprIn := true, adrIn := true }, bytePar s.addr) := rfl
  have p4 : dev { s with st := .command, selected := true } { Bus.Spec.rest with hld := hold, cmd := true, oprIn := true, adrIn := true } (Bus.Spec.byte cmd) (bytePar s.addr) =
      .ok (selectedWith s cmd, { Bus.Spec.rest with hld := hold, cmd := true, oprIn := true }, bytePar s.addr) := by
    rw [← p3]
    simp [dev, Bus.Spec.rest, command, commandOut, parBad_byte _ hc, h.busy, h.stacked, h.status]
  have p5 : ∀ bi, dev (selectedWith s cmd) { Bus.Spec.rest with hld := hold, oprIn := true } 0 bi =
      .ok ({ selectedWith s cmd with st := .statusAccept }, { Bus.Spec.rest with hld := hold, oprIn := true, staIn := true }, Bus.Spec.byte (selectedWith s cmd).status) := by
    intro bi
    have hst' : (selectedWith s cmd).st = .status := q1
    have ha' : (selectedWith s cmd).t.attn = false := q6 h.attn
    unfold dev
    rw [if_neg (by simp [Bus.Spec.rest]), hst']
    simp only [status]
    rw [if_neg (by simp [ha'])]
    have q7' : (selectedWith s cmd).status < 256 := q7
    rw [withPar_ok _ q7']
    rfl
  exact bind_ok (poll_ok p1) (bind_ok (poll_ok p2) (bind_ok (poll_ok p4) (poll_ok (p5 _))))

/-- The status byte on bus in is accepted and the console lets go of the interface. -/
theorem accept_done (s : S) (hold : Bool) (h : s.st = .statusAccept) (hs : s.status < 256) (hd : s.cmdDone = true ∨ s.cmd = 0) :
    Bus.Spec.accept dev ⟨s, { Bus.Spec.rest with hld := hold, oprIn := true, staIn := true }, Bus.Spec.byte s.status⟩ 0 =
      .ok ⟨{ s with status := 0, stacked := false, dataEnd := false, cmdDone := false, cmd := 0, busy := false, selected := false, st := .idle }, { Bus.Spec.rest with hld := hold }, Bus.Spec.byte s.status⟩ := by
  have p1 : dev s { Bus.Spec.rest with hld := hold, srv := true, oprIn := true, staIn := true } 0 (Bus.Spec.byte s.status) =
      .ok ({ s with status := 0, stacked := false, dataEnd := false, cmdDone := false, cmd := 0, busy := false, st := .statusWait }, { Bus.Spec.rest with hld := hold, srv := true }, Bus.Spec.byte s.status) := by
    unfold dev
    rw [if_neg (by simp [Bus.Spec.rest]), h]
    simp only [statusAccept, withPar_ok _ hs, statusAccepted, Bus.Spec.rest, Res.bind]
    rcases hd with hd | hd <;> simp [hd]
  have p2 : dev { s with status := 0, stacked := false, dataEnd := false, cmdDone := false, cmd := 0, busy := false, st := .statusWait } { Bus.Spec.rest with hld := hold } 0 (Bus.Spec.byte s.status) =
      .ok ({ s with status := 0, stacked := false, dataEnd := false, cmdDone := false, cmd := 0, busy := false, selected := false, st := .idle }, { Bus.Spec.rest with hld := hold }, Bus.Spec.byte s.status) := by
    simp [dev, Bus.Spec.rest, statusWait]
  exact bind_ok (poll_ok p1) (poll_ok p2)

/-! ## C81 -/

namespace Spec

/-- The commands of a 1052: test I/O, write, no operation, sense, write with carrier return, read. -/
abbrev commands : List Nat := [0x00, 0x01, 0x03, 0x04, 0x09, 0x0a]

end Spec

theorem deviceCmd_invalid (s : S) (cmd : Nat) (hb : s.busy = false) (hc : cmd < 256) (hn : cmd ∉ Spec.commands) :
    deviceCmd s cmd = invalid { s with cmd := cmd, dataRdy := false, dataEnd := false, cmdDone := false, stacked := false, status := 0 } := by
  have hm : cmd % 256 = cmd := Nat.mod_eq_of_lt hc
  unfold deviceCmd
  rw [if_neg (by simp [hb])]
  simp only [hm]
  split
  · rfl
  · next h1 =>
    have key : ∀ v : Fin 256, v.val ∉ Spec.commands → tst v.val 0xf0 = true ∨ (v.val &&& 0xf ≠ 0 ∧ v.val &&& 0xf ≠ 1 ∧ v.val &&& 0xf ≠ 9 ∧ v.val &&& 0xf ≠ 10 ∧ v.val &&& 0xf ≠ 3 ∧ v.val &&& 0xf ≠ 4) := by decide +kernel
    have k : tst cmd 0xf0 = true ∨ (cmd &&& 0xf ≠ 0 ∧ cmd &&& 0xf ≠ 1 ∧ cmd &&& 0xf ≠ 9 ∧ cmd &&& 0xf ≠ 10 ∧ cmd &&& 0xf ≠ 3 ∧ cmd &&& 0xf ≠ 4) := key ⟨cmd, hc⟩ hn
    clear key
    rcases k with k | ⟨k0, k1, k9, ka, k3, k4⟩
    · exact absurd k h1
    · split
      all_goals first | contradiction | rfl

/-- **C81**: a command code the 1052 does not have is refused at once with channel end, device end and unit check; the
sense byte is command reject, the terminal sees nothing of it, and the console is at rest again. -/
theorem C81_invalid_command_rejected (s : S) (bi cmd : Nat) (hold : Bool) (h : Spec.AtRest s) (hc : cmd < 256) (hn : cmd ∉ Spec.commands) :
    ∃ L, Bus.Spec.initialSelection dev ⟨s, Bus.Spec.rest, bi⟩ (s.addr % 256) cmd hold = .ok L ∧
      L.t = { Bus.Spec.rest with hld := hold, oprIn := true, staIn := true } ∧ L.bi = Bus.Spec.byte 0x0e ∧
      ∃ L', Bus.Spec.accept dev L 0 = .ok L' ∧ L'.t = { Bus.Spec.rest with hld := hold } ∧ Spec.AtRest L'.s ∧ L'.s.sense = 0x80 ∧ L'.s.t = s.t ∧ L'.s.evs = s.evs := by
  have e := deviceCmd_invalid { s with st := .status, selected := true, request := false } cmd h.busy hc hn
  have e' : selectedWith s cmd = _ := e
  refine ⟨_, initialSelection_eq s bi cmd hold h hc, rfl, by rw [e']; rfl, ?_⟩
  refine ⟨_, accept_done { selectedWith s cmd with st := .statusAccept } hold rfl ?_ (Or.inl ?_), rfl, ?_, ?_, ?_, ?_⟩
  · rw [e']; show (sChnEnd ||| sDevEnd ||| sUnitChk) < 256; decide
  · rw [e']; rfl
  · exact ⟨rfl, rfl, rfl, rfl, by rw [e']; exact h.attn⟩
  · rw [e']; rfl
  · rw [e']; rfl
  · rw [e']; rfl

/-- **C81**: the commands the 1052 has are not refused: the initial status is zero, or channel end and device end for no
operation. -/
theorem C81_valid_command_accepted (s : S) (bi cmd : Nat) (hold : Bool) (h : Spec.AtRest s) (hn : cmd ∈ Spec.commands) :
    ∃ L, Bus.Spec.initialSelection dev ⟨s, Bus.Spec.rest, bi⟩ (s.addr % 256) cmd hold = .ok L ∧
      L.t = { Bus.Spec.rest with hld := hold, oprIn := true, staIn := true } ∧ L.bi = Bus.Spec.byte (if cmd = 3 then 0x0c else 0) := by
  have hc : cmd < 256 := by
    have key : ∀ c ∈ Spec.commands, c < 256 := by decide
    exact key cmd hn
  refine ⟨_, initialSelection_eq s bi cmd hold h hc, rfl, ?_⟩
  simp only
  congr 1
  simp only [List.mem_cons, List.not_mem_nil, or_false] at hn
  rcases hn with rfl | rfl | rfl | rfl | rfl | rfl <;> simp [selectedWith, deviceCmd, h.busy, tst, signal] <;> decide

example : ∃ s, Spec.AtRest s ∧ (0x0b : Nat) ∉ Spec.commands ∧ Spec.DReachable s := ⟨init 0x1f, ⟨rfl, rfl, rfl, rfl, rfl⟩, by decide, 0x1f, [], rfl⟩

end Verif.Cons
