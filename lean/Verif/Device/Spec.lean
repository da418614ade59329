import Verif.Device.Model
/-
Specification: the registry is the list of (device, address) registrations in order.
-/
namespace Verif.Device

/-- Channel number of a device address: the hexadecimal digit above the low two, 0 to 7. -/
def chanNo (addr : Nat) : Nat := addr / 256 % 8

abbrev Reg := List (Nat × Nat)

/-- first registration on the same channel whose masked address agrees -/
def Reg.find (r : Reg) (addr mask : Nat) : Option Nat :=
  (r.find? fun (_, a) => chanNo a = chanNo addr ∧ a &&& mask = addr &&& mask).map Prod.fst

/-- Removing a device from a channel. -/
def Reg.del (r : Reg) (dev addr : Nat) : Reg :=
  r.filter fun (d, a) => ¬ (d = dev ∧ chanNo a = chanNo addr)

/-- What the code requires of its callers: channels 0-5, and a device is not registered again
while it is still registered. -/
def COp.Pre (r : Reg) : COp → Prop
  | .add d a => chanNo a < 6 ∧ ∀ x ∈ r, x.1 ≠ d
  | .find a _ => chanNo a < 6
  | .del _ a => chanNo a < 6

def specStep (r : Reg) : COp → Reg × Option (Option Nat)
  | .add d a => (r ++ [(d, a)], none)
  | .find a m => (r, some (r.find a m))
  | .del d a => (r.del d a, none)

/-- Lookup results the specification demands. -/
def specRun : Reg → List COp → Reg × List (Option Nat)
  | r, [] => (r, [])
  | r, o :: os =>
    let (r1, x) := specStep r o
    let (r2, xs) := specRun r1 os
    (r2, match x with | some y => y :: xs | none => xs)

/-- Every call of the history meets the requirements. -/
def PreAll : Reg → List COp → Prop
  | _, [] => True
  | r, o :: os => o.Pre r ∧ PreAll (specStep r o).1 os

/-- Specification of the disk list: newest first; delete removes the newest entry of the drive. -/
abbrev DReg := List (Nat × Option Nat)

def DReg.del (drive : Option Nat) : DReg → DReg
  | [] => []
  | x :: xs => if x.2 = drive then xs else x :: DReg.del drive xs

def dspec : DReg → List DOp → DReg × List (List (Nat × Option Nat))
  | r, [] => (r, [])
  | r, .add f d :: os => dspec ((f, d) :: r) os
  | r, .del d :: os => dspec (r.del d) os
  | r, .step :: os => let (r', cs) := dspec r os; (r', r :: cs)

/-- Drives are real objects outside the list: not NULL, address below `base`. -/
def DOp.Pre (base : Nat) : DOp → Prop
  | .add _ d => ∃ p, d = some p ∧ p < base
  | .del d => ∃ p, d = some p ∧ p < base
  | .step => True

end Verif.Device
