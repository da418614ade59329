import Verif.Tables
/-
Column code tables of /repo/src/device/card.c: the two reverse tables are built by
`init_card_context` at run time, so the building loops are modelled.
`none` is an index outside a table.
-/
namespace Verif.Card

/-- A C array of `n` cells of type `uint16_t`/`uint8_t`, indexed with a bounds check. -/
structure Arr where
  size : Nat
  get  : Nat → Nat

def Arr.rd (a : Arr) (i : Nat) : Option Nat := if i < a.size then some (a.get i) else none
def Arr.wr (a : Arr) (i v : Nat) : Option Arr :=
  if i < a.size then some { a with get := fun j => if j = i then v else a.get j } else none

/-- The loop filling `hol_to_ebcdic_table`, card.c 885-893; the list is the rest of
`ebcdic_to_hol_table` from index `i`.  A column that already has a byte is left alone (the C code
prints a message). -/
def fillEbcdic : List Nat → Nat → Arr → Option Arr
  | [], _, a => some a
  | t :: ts, i, a => do
    let old ← a.rd t
    if old ≠ 0x100 then fillEbcdic ts (i + 1) a
    else fillEbcdic ts (i + 1) (← a.wr t i)

/-- `hol_to_ebcdic_table` after `init_card_context`, card.c 883-893. -/
def holToEbcdicArr : Option Arr := fillEbcdic ebcdicToHolTab 0 { size := 4096, get := fun _ => 0x100 }

/-- The loop filling `hol_to_ascii_table`, card.c 895-901. -/
def fillAscii : List Nat → Nat → Arr → Option Arr
  | [], _, a => some a
  | t :: ts, i, a => do
    if t &&& 0xf000 = 0 then fillAscii ts (i + 1) (← a.wr t i)
    else fillAscii ts (i + 1) a

/-- `hol_to_ascii_table` after `init_card_context`, card.c 894-901. -/
def holToAsciiArr : Option Arr := fillAscii asciiToHol029Tab 0 { size := 4096, get := fun _ => 0xff }

/-- `ebcdic_to_hol`, card.c 238-243. -/
def ebcdicToHol (e : Nat) : Option Nat := ebcdicToHolTab[e]?
/-- `hol_to_ebcdic`, card.c 245-250. -/
def holToEbcdic (h : Nat) : Option Nat := holToEbcdicArr.bind (·.rd h)
/-- `hol_to_ascii`, card.c 252-257. -/
def holToAscii (h : Nat) : Option Nat := holToAsciiArr.bind (·.rd h)
/-- `ascii_to_hol`, card.c 259-264. -/
def asciiToHol (c : Nat) : Option Nat := asciiToHolEbcdicTab[c]?
/-- `ascii_to_hol_029[c]`, the table used when a text deck is loaded, card.c 443-446: codes with a
high bit become the 12-bit error column. -/
def textToHol (c : Nat) : Option Nat :=
  (asciiToHol029Tab[c]?).map fun t => (if t &&& 0xf000 ≠ 0 then 0xfff else t) &&& 0xfff

end Verif.Card
