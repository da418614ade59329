import Verif.Sel50.Join

/-! # Where channels and CCWs get in each other's way -/

namespace Verif.Sel50

/-- One cycle of the three channels; `f` is what the microprogram does to the shared signals before. -/
def Sys.tick (n : Nat → In) (f : Glob → Glob) (s : Sys) : Sys := { s with g := f s.g }.cycle n
/-- `CH>` for channel `i`. -/
def Sys.gate (i : Nat) (aob : W) (s : Sys) : Sys :=
  { s with c := fun k => if k = i then Sel50.gate aob (s.c k) else s.c k }

/-- Interfaces 0 and 1; nothing on the others. -/
def two (a b : In) : Nat → In := fun k => if k = 0 then a else if k = 1 then b else ⟨{}, 0, true⟩
def quietIn : In := ⟨inT false false, 0, true⟩
def offer (b : B) : In := ⟨inT true false, b, oddPar b⟩
def fallIn : In := ⟨inT false true, 0, true⟩

/-- Channels 0 and 1 both about to read words. -/
def twoStart : Sys :=
  { g := {}, c := fun k => if k < 2 then { op := 4, tags := { opr := true } } else { polling := true } }

/-- Channel 1 reads a word, which moves to local storage by the routine of channel 1, and asks for it
to be stored. Channel 0 has read a word meanwhile and asks for it to be moved to local storage. The
break-in goes to channel 0 first. -/
def twoBefore : Sys :=
  [Sys.tick (two quietIn (offer 1)) id, Sys.tick (two quietIn fallIn) id,
   Sys.tick (two quietIn (offer 2)) id, Sys.tick (two quietIn fallIn) id,
   Sys.tick (two quietIn (offer 3)) id, Sys.tick (two (offer 5) fallIn) id,
   Sys.tick (two fallIn (offer 4)) id, Sys.tick (two (offer 6) fallIn) id,
   Sys.tick (two fallIn quietIn) (fun g => { g with ch := 1, breakOut := true, breakIn := 0 }),
   Sys.gate 1 0, Sys.tick (two (offer 7) quietIn) id, Sys.tick (two fallIn quietIn) id,
   Sys.tick (two (offer 8) quietIn) (fun g => { g with last := true }),
   Sys.tick (two fallIn quietIn) (fun g => { g with last := false, breakOut := false }),
   Sys.tick (two quietIn quietIn) id,
   Sys.tick (two quietIn quietIn) (fun g => { g with ch := 0, breakOut := true, breakIn := 2 }),
   Sys.gate 0 0].foldl (fun s f => f s) twoStart

/-- The last cycle of the routine of channel 0. -/
def twoAfter : Sys := twoBefore.tick (two quietIn quietIn) (fun g => { g with last := true })

/-- **C143** is violated: with channel 0's routine running, and channel 1's only asked for, the last
cycle takes the word of channel 1 which waits to be stored off the books. Position, the mark that
local storage is full and the indication that there is a word to store are reset. -/
theorem C143_violated_release :
    (twoBefore.g.ch = 0 ∧ (twoBefore.c 1).chpos = 0x10 ∧ (twoBefore.c 1).lsFull = true ∧
      (twoBefore.c 1).iostat = 0x10) ∧
    twoAfter.g.breakIn = 2 ∧ (twoAfter.c 1).chpos = 0 ∧ (twoAfter.c 1).lsFull = false ∧
      (twoAfter.c 1).iostat = 0 := by decide +kernel

/-- Channel 0 writing, with a word in C and one in B; channel 1 about to begin to write. -/
def wrStart : Sys :=
  { g := {}, c := fun k =>
      if k = 0 then { op := 1, tags := { opr := true }, cFull := true, bFull := true,
                      cReg := 0x11111111, bReg := 0x22222222 }
      else if k = 1 then { op := 1, tags := { opr := true } } else { polling := true } }

/-- Both ask for a word, the routine runs for channel 0 up to its third signal. -/
def wrBefore : Sys :=
  [Sys.tick (two quietIn quietIn) id, Sys.tick (two quietIn quietIn) id,
   Sys.tick (two quietIn quietIn) (fun g => { g with ch := 0, breakOut := true, breakIn := 2 }),
   Sys.tick (two quietIn quietIn) (fun g => { g with dtc2 := true }),
   Sys.tick (two quietIn quietIn) (fun g => { g with dtc2 := true })].foldl (fun s f => f s) wrStart

/-- The third signal, with the third word of channel 0 on the adder latch. -/
def wrAfter : Sys :=
  wrBefore.tick (two quietIn quietIn) (fun g => { g with dtc2 := true, aob := 0x33333333 })

/-- **C143** is violated for writing too: channel 1, which waits for its own routine, takes the
signals of channel 0's for its own and writes over the word of channel 0 which has not yet gone to
the device. -/
theorem C143_violated_write :
    (wrBefore.g.ch = 0 ∧ (wrBefore.c 0).bFull = true ∧ (wrBefore.c 0).bReg = 0x22222222 ∧
      (wrBefore.c 0).cReg = 0x11111111) ∧
    (wrAfter.c 0).bFull = true ∧ (wrAfter.c 0).bReg = 0x33333333 ∧ (wrAfter.c 0).lsFull = true ∧
      (wrAfter.c 0).cReg = 0x11111111 := by decide +kernel

/-- The states before are those of a transfer in which each channel alone would have been served. -/
theorem C143_example : (twoBefore.c 0).lsFull = true ∧ (twoAfter.c 0).chpos = 0 ∧
    (twoAfter.c 0).lsFull = true := by decide +kernel

/-! ### Data chaining -/

/-- A read with data chaining; the CCW has twelve bytes left, from a word boundary. -/
def cdStart : Rd := { c := { op := 4, gp := 0x01, cd := true, tags := { opr := true } } }

/-- The device offers a byte while the routine of another channel runs. -/
def sendsLate (b : B) : List RdEv :=
  [.cycle ⟨inT true false, b, oddPar b⟩ { breakOut := true } { breakOut := true },
   .cycle ⟨inT false true, 0, true⟩ { breakOut := true } { breakOut := true }]

/-- The device sends twelve bytes. The first word goes to local storage. The second follows while the
routine of another channel runs, and the third after that. The first is stored. At the end of the routine that stores the first word, the channel asks for the
next CCW. -/
def cdPlay : List RdEv :=
  sends 0x10 ++ sends 0x11 ++ sends 0x12 ++ sends 0x13 ++
  [idle {}, .gate 0, idle { last := true }] ++
  sendsLate 0x20 ++ sendsLate 0x21 ++ sendsLate 0x22 ++ sendsLate 0x23 ++
  sends 0x30 ++ sends 0x31 ++ sends 0x32 ++ sends 0x33 ++
  [.store, idle { last := true }]

/-- The first signal of the fetch, with the address of the CCW on the adder latch. -/
def cdFetch : List RdEv := [idle {}, idle { dtc2 := true, aob := 0xcccccccc }]

def cdSeen (s : Rd) : List B × List B × List B := (s.taken, s.stored, s.pending)

/-- **C144** is violated: twelve bytes were accepted, four are stored, and of the other eight four
are gone. The fetch of the next CCW uses the register in which they wait. -/
theorem C144_violated_lost :
    cdSeen (cdPlay.foldl (Rd.step 0) cdStart) =
      ([0x10, 0x11, 0x12, 0x13, 0x20, 0x21, 0x22, 0x23, 0x30, 0x31, 0x32, 0x33],
       [0x10, 0x11, 0x12, 0x13], [0x20, 0x21, 0x22, 0x23, 0x30, 0x31, 0x32, 0x33]) ∧
    cdSeen ((cdPlay ++ cdFetch).foldl (Rd.step 0) cdStart) =
      ([0x10, 0x11, 0x12, 0x13, 0x20, 0x21, 0x22, 0x23, 0x30, 0x31, 0x32, 0x33],
       [0x10, 0x11, 0x12, 0x13], [0xcc, 0xcc, 0xcc, 0xcc, 0x30, 0x31, 0x32, 0x33]) := by
  decide +kernel

end Verif.Sel50
