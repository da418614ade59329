import Verif.Dev1442.History
/-!
# Commands of the 1442 as the channel sees them (C43, C45, C75, C76)
-/
namespace Verif.Dev1442
open Verif.Bus
open Verif.Card (Res Img)

/-- A device at rest: nothing in progress, no status waiting. -/
structure Spec.AtRest (s : S) : Prop where
  st : s.st = .idle
  busy : s.busy = false
  stacked : s.stacked = false
  status : s.status = 0

/-- The device after a command was decoded in initial selection. -/
def selectedWith (s : S) (cmd : Nat) : S :=
  deviceCmd { s with disconnect := false, st := .status, selected := true, request := false } cmd

theorem deviceCmd_mod (s : S) (b : Nat) (v : Nat) (h : b % 256 = v % 256) : deviceCmd s b = deviceCmd s v := by
  unfold deviceCmd; rw [h]

theorem deviceCmd_st (s : S) (b : Nat) : (deviceCmd s b).st = s.st ∧ (deviceCmd s b).addr = s.addr ∧ (deviceCmd s b).selected = s.selected ∧ (deviceCmd s b).request = s.request ∧ (deviceCmd s b).stacked = s.stacked ∧ (deviceCmd s b).disconnect = s.disconnect := by
  unfold deviceCmd cmdWrite cmdRead cmdFeed cmdEnd addEv
  simp only
  repeat' split
  all_goals exact ⟨rfl, rfl, rfl, rfl, rfl, rfl⟩

theorem initialSelection_eq (s : S) (bi cmd : Nat) (hold : Bool) (h : Spec.AtRest s) (hs : s.sense < 256) (hc : cmd < 256) :
    Spec.initialSelection dev ⟨s, Spec.rest, bi⟩ (s.addr % 256) cmd hold =
      .ok ⟨{ selectedWith s cmd with st := .statusAccept }, { Spec.rest with hld := hold, oprIn := true, staIn := true }, Spec.byte (selectedWith s cmd).status⟩ := by
  have ha : s.addr % 256 < 256 := Nat.mod_lt _ (by decide)
  have p1 : (dev s { Spec.rest with adr := true, sel := true, hld := hold } (Spec.byte (s.addr % 256)) bi) =
      .ok ({ s with disconnect := false, st := .initSel, selected := true }, { Spec.rest with adr := true, hld := hold, oprIn := true }, bytePar s.addr) := by
    unfold dev
    rw [if_neg (by simp [Spec.rest]), h.st]
    simp [idle, idleRequest, idleAddressed, Spec.rest, h.stacked, byte_mod _ ha, parBad_byte _ ha, h.busy]
    cases s.request <;> rfl
  have hst := (deviceCmd_st { s with disconnect := false, st := .status, selected := true, request := false } cmd).1
  have p3 : deviceCmd { s with disconnect := false, st := .status, selected := true, request := false } (Spec.byte cmd) = selectedWith s cmd :=
    deviceCmd_mod _ _ _ (by rw [byte_mod _ hc, Nat.mod_eq_of_lt hc])
  obtain ⟨b, q1, q2, q3⟩ := deviceCmd_spec { s with disconnect := false, st := .status, selected := true, request := false } hs cmd
  have p2 : dev { s with disconnect := false, st := .initSel, selected := true } { Spec.rest with hld := hold, oprIn := true } (Spec.byte (s.addr % 256)) (bytePar s.addr) =
      .ok ({ s with disconnect := false, st := .command, selected := true }, { Spec.rest with hld := hold, oprIn := true, adrIn := true }, bytePar s.addr) := rfl
  have p4 : dev { s with disconnect := false, st := .command, selected := true } { Spec.rest with hld := hold, cmd := true, oprIn := true, adrIn := true } (Spec.byte cmd) (bytePar s.addr) =
      .ok (selectedWith s cmd, { Spec.rest with hld := hold, cmd := true, oprIn := true }, bytePar s.addr) := by
    rw [← p3]
    simp [dev, Spec.rest, command, commandOut, parBad_byte _ hc, h.busy, h.stacked, h.status]
  have p5 : ∀ bi, dev (selectedWith s cmd) { Spec.rest with hld := hold, oprIn := true } 0 bi =
      .ok ({ selectedWith s cmd with st := .statusAccept }, { Spec.rest with hld := hold, oprIn := true, staIn := true }, Spec.byte (selectedWith s cmd).status) := by
    intro bi
    have hst' : (selectedWith s cmd).st = .status := hst
    unfold dev
    rw [if_neg (by simp [Spec.rest]), hst']
    simp only [status]
    have q3' : (selectedWith s cmd).status < 256 := q3
    rw [withPar_ok _ q3']
    rfl
  exact bind_ok (poll_ok p1) (bind_ok (poll_ok p2) (bind_ok (poll_ok p4) (poll_ok (p5 _))))

end Verif.Dev1442
