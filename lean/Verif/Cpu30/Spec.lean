import Verif.Xlat.Props
/-!
# What the adder of the model 2030 is meant to compute, in ordinary arithmetic

`cf`, `cg`, `cv`, `cc` are fields of the microinstruction, `s` is the S register, whose bit 0 (worth 128) is the
true/complement latch and whose bit 3 (worth 16) is the carry latch.
-/
namespace Verif.Cpu30.Spec

/-- The byte the A input sees: zero, either digit, both, the digits moved or exchanged. -/
def inA (cf a : Nat) : Nat :=
  match cf with
  | 1 => a % 16
  | 2 => a / 16 % 16 * 16
  | 3 => a % 256
  | 5 => a / 16 % 16
  | 6 => a % 16 * 16
  | 7 => a % 16 * 16 + a / 16 % 16
  | _ => 0

/-- The byte the B input sees before complementing. -/
def inB (cg b : Nat) : Nat :=
  match cg with
  | 1 => b % 16
  | 2 => b / 16 % 16 * 16
  | 3 => b % 256
  | _ => 0

/-- Subtraction is requested. -/
def sub (cv s : Nat) : Prop := cv = 1 ∨ ((cv = 2 ∨ cv = 3) ∧ s / 128 % 2 = 1)

instance (cv s : Nat) : Decidable (sub cv s) := by unfold sub; infer_instance

/-- Carry into the low bit. -/
def cin (cc s : Nat) : Nat := if cc = 1 ∨ cc = 5 then 1 else if cc = 6 then s / 16 % 2 else 0

/-- The adder adds (it does not form a logical function). -/
def adds (cc : Nat) : Prop := cc = 0 ∨ cc = 1 ∨ cc = 4 ∨ cc = 5 ∨ cc = 6

/-- Two decimal digits. -/
def bcd (v : Nat) : Prop := v < 256 ∧ v % 16 ≤ 9 ∧ v / 16 ≤ 9

/-- The number two digits stand for. -/
def dec (v : Nat) : Nat := v / 16 * 10 + v % 16

/-- The number a row of bytes stands for, low order byte first, to base `base`. -/
def value (base : Nat) (f : Nat → Nat) : List Nat → Nat
  | [] => 0
  | b :: l => f b + base * value base f l

def oddParity (v : Nat) : Prop := Xlat.ones 9 v % 2 = 1

end Verif.Cpu30.Spec
