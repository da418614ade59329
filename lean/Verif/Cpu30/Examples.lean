import Verif.Cpu30.PropsReq
/-!
# Concrete machine states that meet the hypotheses of the model 2030 theorems
-/
namespace Verif.Cpu30.Ex
open Verif.Cpu30

/-- Registers with odd parity: L = 27, D = 15, U = 02, V = 34, R = 199 (byte 99). -/
def regs : Regs :=
  { C := 0, D := 0x015, F := 0, G := 0x100, H := 0x100, L := 0x127, Q := 0x30, R := 0x199, S := 0, T := 0x100, MC := 0, XX := 0,
    mask := 0, I := 0x100, J := 0x100, U := 0x002, V := 0x034, O := 0, TE := 0, JE := 0, TA := 0, ascii := false, wait := false }

/-- A machine of 32768 bytes; byte n holds n mod 256, every key is 5. -/
def mem : Mem := { main := fun n => n % 256, max := 0x7fff, ls := fun _ => 0x100, mp := fun _ => 5 }

def chans : Sel :=
  { GR := fun i => if i = 0 then 0x101 else 0x0c8, GU := fun i => if i = 0 then 0x010 else 0x020, GV := fun _ => 0x100, GI := fun _ => 0x100,
    GC := fun _ => 0x001, GD := fun _ => 0x100, GK := fun _ => 0, GE := fun _ => 0, GF := fun _ => 0,
    GG := fun i => if i = 0 then 0x001 else 0x002, GO := fun _ => 0, ch := 0, sav := 0 }

def s0 : S :=
  { r := regs, a := { M := 0x100, N := 0x100, MN := 0, SA := 0xe0, store := .main, readCall := false, allowWrite := false }, m := mem,
    l := { protectLoc := false, memProt := false, stgProtReq := false, inhStgProt := false, memWrapReq := false, iWrap := false, uWrap := false, uWrapMpx := false, wrapBuf := false },
    c := chans, q := { WX := 0x123, FWX := 0, GWX := 0, stat := 0, selRest := false, mpxRest := false, selX := 0, mpxX := 0 },
    evenParity := false, aluChk := false }

def env : Env :=
  { interrupt := false, anyPrio := false, supprA := false, secondErr := false, chkDisabled := false, swHJ := 0, swFG := 0, FT := 0, TT := 0,
    FI := 0, TI := 0, JI := 0, GS := 0, GT := 0, GJ6 := 0, GJ7 := 0, selIntr0 := false, timer := false, tReq := false }

/-- Store L + D + carry into D, no storage operation. -/
def add : Ros :=
  { CN := 0x24, CH := 0, CL := 0, CM := 1, CU := 0, CA := 9, CB := 2, CK := 0, CD := 8, CF := 3, CG := 3, CV := 0, CC := 4, CS := 0, PK := 0 }

/-- No operation at all on registers: result to no register (CD = 0). -/
def nop : Ros := { add with CD := 0 }

theorem add_registerOp : Spec.registerOp add := by
  constructor
  · constructor <;> decide
  all_goals decide

/-- C53: 27 + 15 = 3C. -/
example : ∃ s', cycle env add s0 = .ok s' ∧ s'.r.D % 256 = 0x3c := by
  obtain ⟨s', c, h1, h2, h3, h4, -⟩ := C53_binary_sum env add s0 add_registerOp rfl (by decide) (by decide) (by unfold Spec.adds; decide)
  refine ⟨s', h1, ?_⟩
  have : s'.r.D % 256 + 256 * c = 0x3c := h3
  omega

/-- C54: 27 + 15 = 42 in decimal. -/
example : ∃ s', cycle env { add with CV := 3 } s0 = .ok s' ∧ Spec.dec (s'.r.D % 256) = 42 := by
  have hop : Spec.registerOp { add with CV := 3 } := by
    constructor
    · constructor <;> decide
    all_goals decide
  obtain ⟨s', c, h1, h2, h3, h4, -⟩ := C54_decimal_sum env { add with CV := 3 } s0 hop rfl (by decide) rfl (by unfold Spec.adds; decide)
    (by unfold Spec.bcd; decide) (by unfold Spec.bcd; decide)
  refine ⟨s', h1, ?_⟩
  have h4' : Spec.dec (s'.r.D % 256) + 100 * c = 42 := h4
  have h5 : s'.r.D % 256 < 256 := by omega
  omega

/-- C53, three byte numbers: C8F0A1 + 64AA77 with carry out. -/
example : chain { add with CC := 6 } 0 [(0xa1, 0x77), (0xf0, 0xaa), (0xc8, 0x64)] = .ok ([0x18, 0x9b, 0x2d], 16) := by decide +kernel
/-- C54, four digits: 9987 + 0015 = 0002 and carry. -/
example : chain { add with CV := 3, CC := 6 } 0 [(0x87, 0x15), (0x99, 0x00)] = .ok ([0x02, 0x00], 16) := by decide +kernel

/-- C54 violated: 0 + A. -/
example : alu { add with CV := 3, CC := 0 } 0 false 0x100 0x00a = .oob := by decide +kernel

/-- C55: the registers of `s0` have odd parity. -/
example : Spec.regsOdd s0.r := by
  intro x hx
  have hx : x ∈ [0x015, 0x127, 0x100, 0x100, 0x034, 0x002, 0x100, 0x100, 0x100] := hx
  have t : ∀ x ∈ [0x015, 0x127, 0x100, 0x100, 0x034, 0x002, 0x100, 0x100, 0x100], x < 512 ∧ Xlat.ones 9 x % 2 = 1 := by decide
  exact t x hx

/-- Value of a successful cycle. -/
def get (r : Res S) (f : S → Nat) : Option Nat :=
  match r with
  | .ok s => some (f s)
  | .oob => none

/-- C55: the forced even parity function does give a wrong parity result and sets the check. -/
example : get (cycle env { add with CK := 0x18 } s0) (·.r.D) = some 0x03c ∧ get (cycle env { add with CK := 0x18 } s0) (fun s => s.r.MC % 2) = some 1 := by
  decide +kernel

/-- C71/C53 on a whole cycle: D changes, L does not. -/
example : get (cycle env add s0) (·.r.D) = some 0x13c ∧ get (cycle env add s0) (·.r.L) = some 0x127 := by decide +kernel

/-- C72: a wrong parity bit in D is reported. -/
example : get (cycle env add { s0 with r := { regs with D := 0x115 } }) (fun s => s.r.MC / 64 % 2) = some 1 := by decide +kernel

/-- C56: the address stays in range; a branch through U, V with U = 12 does not. -/
example : get (cycle env add s0) (·.q.WX) = some 0x124 := by decide +kernel
example : get (cycle env { add with CK := 0x11 } { s0 with r := { regs with U := 0x112 } }) (·.q.WX) = some 0x1234 := by decide +kernel

/-- A machine about to read byte 0234. -/
def pend : S := { s0 with a := { s0.a with M := 0x002, N := 0x034, MN := 0x234, SA := 0xe0, readCall := true } }

/-- C58: `pend` has well formed addresses. -/
example : Spec.addrOk pend ∧ pend.m.max = 2 ^ 15 - 1 := by
  refine ⟨⟨?_, ?_, ?_, ?_⟩, ?_⟩
  all_goals first | decide | (intro h; exact absurd rfl h)

/-- Address 9000 of the 32768 byte machine is read through U, V, then written back. -/
def far : S := { s0 with r := { regs with U := 0x190, V := 0x100 } }
def rd : Ros := { nop with CM := 4 }
def wr : Ros := { nop with CM := 0 }

example : ∃ s1, cycle env rd far = .ok s1 ∧ cycle env wr s1 = .oob := by
  cases h : cycle env rd far with
  | oob =>
    have : get (cycle env rd far) (fun _ => 0) = some 0 := by decide +kernel
    rw [h] at this
    simp [get] at this
  | ok s1 => exact ⟨s1, rfl, C58_violated_write_back env env rd wr far s1 h ⟨rfl, rfl⟩ rfl rfl rfl (by decide) ⟨rfl, rfl⟩ (by decide)⟩

theorem pend_ok : Spec.pendingRead pend := by
  refine ⟨rfl, rfl, ?_, ?_, ?_, ?_, ?_, ?_⟩
  all_goals first | decide | (unfold Spec.oddParity; decide)

/-- The key in force is 3, the keys of storage are 5. -/
theorem pend_protects : Spec.protects pend := by
  refine ⟨rfl, ?_, ?_, ?_⟩
  all_goals decide

/-- C59: read, an addition, write back. -/
example : get (run [(env, nop), (env, add), (env, wr)] pend) (·.m.main 0x234) = some 0x34 ∧
    get (run [(env, nop), (env, add)] pend) (·.m.main 0x234) = some 0 ∧ get (run [(env, nop), (env, add)] pend) (·.r.R) = some 0x34 := by decide +kernel

/-- C57: a blocked store and the same store with the key in force zero. -/
example : get (cycle env { nop with CM := 2 } pend) (·.m.main 0x234) = some 0x34 ∧
    get (cycle env { nop with CM := 2 } { pend with r := { regs with Q := 0 } }) (·.m.main 0x234) = some 0x199 := by decide +kernel

/-- C57: read, an attempt to change R, write back: blocked with the key, done without. -/
example : get (run [(env, nop), (env, { add with CD := 7 }), (env, wr)] pend) (·.m.main 0x234) = some 0x34 ∧
    get (run [(env, nop), (env, { add with CD := 7 }), (env, wr)] { pend with r := { regs with Q := 0 } }) (·.m.main 0x234) = some 0x13c := by decide +kernel

/-- C57 violated: the protected byte is lost. -/
example : get (run [(env, { add with CD := 7 }), (env, { nop with CM := 2 })] pend) (·.m.main 0x234) = some 0 := by decide +kernel

def sh : Share := { grFull := true, cntNotZero := true, cntZero := false }

/-- C73: channel 1 stores C8 at 2000. -/
def s1 : S := { s0 with c := { chans with ch := 1 } }
example : Spec.chanOk s1 1 ∧ Spec.chanCount s1 1 = 256 ∧ Spec.chanAddr s1 1 = 0x2000 ∧ Spec.inputCmd (s1.c.GG 1) ∧ ¬ Spec.chanProtects s1 1 := by
  refine ⟨⟨?_, ?_, ?_, ?_⟩, ?_, ?_, ?_, ?_⟩
  all_goals first | decide | (unfold Spec.inputCmd; decide) | (unfold Spec.chanProtects; decide)

def gets (r : Res (S × Share)) (f : S → Nat) : Option Nat :=
  match r with
  | .ok s => some (f s.1)
  | .oob => none

example : gets (transfer 1 s1 sh) (·.m.main 0x2000) = some 0xc8 ∧ gets (transfer 1 s1 sh) (Spec.chanAddr · 1) = some 0x2001 ∧
    gets (transfer 1 s1 sh) (Spec.chanCount · 1) = some 255 := by decide +kernel

/-- C57, channel: with channel key 7 the byte stays. -/
example : gets (transfer 1 { s1 with c := { s1.c with GK := fun _ => 0x70 } } sh) (·.m.main 0x2000) = some 0 ∧
    Spec.chanProtects { s1 with c := { s1.c with GK := fun _ => 0x70 } } 1 := by
  constructor
  · decide +kernel
  · unfold Spec.chanProtects; decide

/-- C59/C74: a request through U, V for address 0234, then the read. -/
example : Spec.address rd s0 = 0x234 ∧ get (cycle env rd s0) (·.a.MN) = some 0x234 ∧ get (cycle env rd s0) (·.a.SA) = some 0xe0 ∧
    get (run [(env, rd), (env, nop)] s0) (·.r.R) = some 0x34 ∧ Spec.page rd s0 = 1 ∧ get (cycle env rd s0) (·.q.WX) = some 0x124 := by decide +kernel
example : Spec.oddParity (Spec.addrRegs rd s0).1 ∧ Spec.oddParity (Spec.addrRegs rd s0).2 ∧ outOfRange s0 = false := by
  refine ⟨?_, ?_, ?_⟩
  all_goals first | decide | (unfold Spec.oddParity; decide)

end Ex

/-- **C73 violated**, interleaving: the storage cycle of channel 1 is split by one of channel 0 (cpu2030.c 761-765 prefers
channel 0 whenever it requests); the byte channel 1 received for address 2000 is stored at channel 0's address 1000, and
address 2000 is left alone. -/
theorem C73_violated_interleaved :
    ∃ (s : S) (f0 f1 : Share), Spec.chanAddr s 1 = 0x2000 ∧ Spec.chanAddr s 0 = 0x1000 ∧ s.c.GR 1 = 0x0c8 ∧ s.c.GG 0 % 2 = 1 ∧
      Spec.inputCmd (s.c.GG 1) ∧ (s.m.main 0x1000 = 0 ∧ s.m.main 0x2000 = 0) ∧
      ∃ a b c d, shareRead 1 s f1 = .ok a ∧ shareRead 0 a.1 f0 = .ok b ∧ shareWrite 0 b.1 b.2 = .ok c ∧ shareWrite 1 c.1 a.2 = .ok d ∧
        d.1.m.main 0x1000 = 0x0c8 ∧ d.1.m.main 0x2000 = 0 := by
  refine ⟨Ex.s1, { grFull := false, cntNotZero := true, cntZero := false }, Ex.sh, by decide, by decide, rfl, rfl, by unfold Spec.inputCmd; decide, ⟨rfl, rfl⟩, ?_⟩
  have t : (match (shareRead 1 Ex.s1 Ex.sh) with
    | .ok a => (match shareRead 0 a.1 { grFull := false, cntNotZero := true, cntZero := false } with
      | .ok b => (match shareWrite 0 b.1 b.2 with
        | .ok c => (match shareWrite 1 c.1 a.2 with
          | .ok d => d.1.m.main 0x1000 == 0x0c8 && d.1.m.main 0x2000 == 0
          | .oob => false)
        | .oob => false)
      | .oob => false)
    | .oob => false) = true := by decide +kernel
  split at t
  · rename_i a ha
    split at t
    · rename_i b hb
      split at t
      · rename_i c hc
        split at t
        · rename_i d hd
          simp only [Bool.and_eq_true, beq_iff_eq] at t
          exact ⟨a, b, c, d, ha, hb, hc, hd, t⟩
        · cases t
      · cases t
    · cases t
  · cases t

end Verif.Cpu30
