import Verif.Card.Model
import Verif.Xlat.Model
/-
The channel interface shared by all devices, /repo/src/device/device.h.

A device is called with the word of tag lines, the byte on bus out (nine bits with parity) and the byte on
bus in; it changes the tags, bus in and its own state.  The tag word is modelled as a record of its twelve named
lines; the remaining four bits of the word are used by nobody.
-/
namespace Verif.Bus

/-- The tag lines, device.h 80-91. -/
structure Tags where
  /-- `CHAN_SEL_OUT` 0x8000 -/
  sel : Bool := false
  /-- `CHAN_ADR_OUT` 0x4000 -/
  adr : Bool := false
  /-- `CHAN_CMD_OUT` 0x2000 -/
  cmd : Bool := false
  /-- `CHAN_SRV_OUT` 0x1000 -/
  srv : Bool := false
  /-- `CHAN_SUP_OUT` 0x0800 -/
  sup : Bool := false
  /-- `CHAN_HLD_OUT` 0x0400 -/
  hld : Bool := false
  /-- `CHAN_OPR_OUT` 0x0200 -/
  opr : Bool := false
  /-- `CHAN_OPR_IN` 0x0080 -/
  oprIn : Bool := false
  /-- `CHAN_ADR_IN` 0x0040 -/
  adrIn : Bool := false
  /-- `CHAN_STA_IN` 0x0020 -/
  staIn : Bool := false
  /-- `CHAN_SRV_IN` 0x0010 -/
  srvIn : Bool := false
  /-- `CHAN_REQ_IN` 0x0008 -/
  reqIn : Bool := false
deriving DecidableEq, Repr

/-- `device_state_t`, device.h 98-112. -/
inductive DState where
  | idle | busy | initSel | command | status | statusAccept | statusWait | endStatus | endAccept | waitDevend | opr | data1 | data2
deriving DecidableEq, Repr

/-- Status bits, device.h 42-49. -/
def sAttn : Nat := 0x80
def sSms : Nat := 0x40
def sCtlEnd : Nat := 0x20
def sBusy : Nat := 0x10
def sChnEnd : Nat := 0x08
def sDevEnd : Nat := 0x04
def sUnitChk : Nat := 0x02
def sUnitExp : Nat := 0x01

/-- Sense bits used by every device, model1442.c 50-55 and the same lines elsewhere. -/
def eCmdRej : Nat := 0x80
def eInterv : Nat := 0x40
def eBusChk : Nat := 0x20
def eEquChk : Nat := 0x10
def eDatChk : Nat := 0x08
def eOvrRun : Nat := 0x04

/-- `(m & bit) != 0` for integers. -/
def tst (v m : Nat) : Bool := v &&& m != 0

/-- `v | odd_parity[v]`, the byte put on bus in; `odd_parity` has 256 entries. -/
def withPar (v : Nat) : Card.Res Nat := (Card.look (Xlat.oddParity v)).bind (fun p => .ok (v ||| p))

/-- `v | odd_parity[v]` where the C code masks `v` with 0xff first, so that the index is in range. -/
def bytePar (v : Nat) : Nat := (v % 256) ||| (oddParityTab.getD (v % 256) 0)

/-- `((bus_out ^ odd_parity[bus_out & 0xff]) & 0x100) != 0`: wrong parity on bus out. -/
def parBad (bo : Nat) : Bool := tst (bo ^^^ oddParityTab.getD (bo % 256) 0) 0x100

end Verif.Bus
