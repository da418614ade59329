import Verif.Tables
/-
The translation tables of /repo/src/device/xlat.c and the parity expressions built on them.
`none` is an index outside a table.
-/
namespace Verif.Xlat

/-- `odd_parity[v]`, xlat.c 100-134. -/
def oddParity (v : Nat) : Option Nat := oddParityTab[v]?

/-- `v | odd_parity[v]`: how every byte is put on a bus, e.g. model1442.c 402. -/
def withParity (v : Nat) : Option Nat := (oddParity v).map (v ||| ·)

/-- `((bus ^ odd_parity[bus & 0xff]) & 0x100) != 0`: the parity error test, e.g. model1442.c 454. -/
def parityError (bus : Nat) : Option Bool :=
  (oddParity (bus &&& 0xff)).map fun p => (bus ^^^ p) &&& 0x100 != 0

/-- `ascii_to_ebcdic[c]`, xlat.c 29-62. -/
def asciiToEbcdic (c : Nat) : Option Nat := asciiToEbcdicTab[c]?
/-- `ebcdic_to_ascii[e]`, xlat.c 64-98. -/
def ebcdicToAscii (e : Nat) : Option Nat := ebcdicToAsciiTab[e]?
/-- `bcd_to_ebcdic[d]`, xlat.c 148-157. -/
def bcdToEbcdic (d : Nat) : Option Nat := bcdToEbcdicTab[d]?

/-- `uint8_t mode = (ctx->mode7 & MT_ODD) ? 0 : 0x100;` model2415.c 218, 268, 402: the value is cut
to eight bits by the assignment. -/
def mode7 (odd : Bool) : Nat := (if odd then 0 else 0x100) % 256

/-- The parity bit of a 7-track frame when writing, model2415.c 255-256 and 308-309:
`data &= 077; data |= parity_table[data] ^ mode`. -/
def frame7 (odd : Bool) (data : Nat) : Option Nat :=
  (parityTab[data &&& 0o77]?).map fun p => (data &&& 0o77) ||| (p ^^^ mode7 odd)

/-- The read side check, model2415.c 403: true when the frame is reported as a data check. -/
def frame7Error (odd : Bool) (frame : Nat) : Option Bool :=
  (parityTab[frame &&& 0o77]?).map fun p => (p ^^^ (frame &&& 0o100) ^^^ mode7 odd) == 0

end Verif.Xlat
