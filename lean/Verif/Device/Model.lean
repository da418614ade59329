/-
Model of the channel device lists and the disk step list, /repo/src/device/device.c.

Device records are owned by the callers; here they are identified by a number and only the
fields `addr` and `next` of `device_t` (device.h 117-143) are kept.  `print_tags`, `system_init`
and `system_shutdown` are not modelled.
-/
namespace Verif.Device

/-- Outcome of C code: value, access outside the 6-entry `chan` table, access through a null or
freed pointer, or a list walk that does not end. -/
inductive Res (α : Type) where
  | ok (a : α)
  | oob
  | badptr
  | loop
deriving Repr, DecidableEq

def Res.bind {α β : Type} (x : Res α) (f : α → Res β) : Res β :=
  match x with
  | .ok a => f a
  | .oob => .oob
  | .badptr => .badptr
  | .loop => .loop

instance : Monad Res where
  pure := Res.ok
  bind := Res.bind

/-- `chan[6]` (device.c 44) and the `addr`/`next` fields of all devices.  `cnt` is ghost: it
counts `add_chan` calls and bounds list walks. -/
structure CSt where
  addr : Nat → Nat
  next : Nat → Option Nat
  chan : Nat → Option Nat      -- only 0..5 exist
  cnt  : Nat

/-- All channels empty (static storage), no device initialised. -/
def cinit : CSt := { addr := fun _ => 0, next := fun _ => none, chan := fun _ => none, cnt := 0 }

/-- `ch = (addr >> 8) & 0x7`, device.c 118, 141, 157. -/
def chOf (addr : Nat) : Nat := (addr >>> 8) &&& 7

/-- Reading `chan[ch]`. -/
def rdChan (s : CSt) (ch : Nat) : Res (Option Nat) := if ch < 6 then .ok (s.chan ch) else .oob

def setF {α : Type} (f : Nat → α) (p : Nat) (v : α) : Nat → α := fun q => if q = p then v else f q

/-- `for (d = chan[ch]; d->next != NULL; d = d->next);` device.c 129. -/
def walkEnd (s : CSt) : Nat → Nat → Res Nat
  | 0, _ => .loop
  | n+1, d => match s.next d with
    | none => .ok d
    | some e => walkEnd s n e

/-- `add_chan`, device.c 115-133. -/
def addChan (s : CSt) (dev addr : Nat) : Res CSt := do
  let s := { s with addr := setF s.addr dev addr, next := setF s.next dev none, cnt := s.cnt + 1 }
  let h ← rdChan s (chOf addr)
  match h with
  | none => .ok { s with chan := setF s.chan (chOf addr) (some dev) }
  | some d =>
    let e ← walkEnd s s.cnt d
    .ok { s with next := setF s.next e (some dev) }

/-- The search loop of `find_chan`, device.c 144-147.  Addresses are 16-bit. -/
def findLoop (s : CSt) (addr mask : Nat) : Nat → Option Nat → Res (Option Nat)
  | _, none => .ok none
  | 0, some _ => .loop
  | n+1, some d =>
    if s.addr d &&& mask = addr &&& mask then .ok (some d) else findLoop s addr mask n (s.next d)

/-- `find_chan`, device.c 138-149. -/
def findChan (s : CSt) (addr mask : Nat) : Res (Option Nat) := do
  let h ← rdChan s (chOf addr)
  findLoop s addr mask s.cnt h

/-- The removal loop of `del_chan`, device.c 170-176. -/
def delLoop (s : CSt) (dev : Nat) : Nat → Nat → Res CSt
  | 0, _ => .loop
  | n+1, d => match s.next d with
    | none => .ok s
    | some e => if e = dev then .ok { s with next := setF s.next d (s.next e) } else delLoop s dev n e

/-- `del_chan`, device.c 154-177. -/
def delChan (s : CSt) (dev addr : Nat) : Res CSt := do
  let h ← rdChan s (chOf addr)
  match h with
  | none => .ok s
  | some d =>
    if d = dev then .ok { s with chan := setF s.chan (chOf addr) (s.next dev) }
    else delLoop s dev s.cnt d

/-- One call made on the channel tables, with its result. -/
inductive COp where
  | add (dev addr : Nat)
  | find (addr mask : Nat)
  | del (dev addr : Nat)

def cstep (s : CSt) : COp → Res (CSt × Option (Option Nat))
  | .add d a => do let s ← addChan s d a; .ok (s, none)
  | .find a m => do let r ← findChan s a m; .ok (s, some r)
  | .del d a => do let s ← delChan s d a; .ok (s, none)

/-- Run a history, collecting the results of all lookups. -/
def crun : CSt → List COp → Res (CSt × List (Option Nat))
  | s, [] => .ok (s, [])
  | s, o :: os => do
    let (s, r) ← cstep s o
    let (s, rs) ← crun s os
    .ok (s, match r with | some x => x :: rs | none => rs)

/-! ### Disk step list -/

/-- `struct _disk`, device.h 146-150. -/
structure DNode where
  step : Nat
  disk : Option Nat
  next : Option Nat
deriving DecidableEq, Repr

/-- The global `disk` (device.c 43) and the heap of list nodes.  Addresses below `base` belong to
other objects (such as the drive records), `calloc` returns fresh addresses from `base` up. -/
structure DSt where
  heap  : Nat → Option DNode
  disk  : Option Nat
  fresh : Nat

/-- Empty list. -/
def dinit (base : Nat) : DSt := { heap := fun _ => none, disk := none, fresh := base }

def dload (s : DSt) (p : Nat) : Res DNode :=
  match s.heap p with | some n => .ok n | none => .badptr

/-- `add_disk`, device.c 182-195 (allocation never fails). -/
def addDisk (s : DSt) (step : Nat) (drive : Option Nat) : DSt :=
  { s with heap := setF s.heap s.fresh (some ⟨step, drive, s.disk⟩), disk := some s.fresh, fresh := s.fresh + 1 }

/-- The loop of `del_disk`, device.c 210-221; `p` is the previous node. -/
def delDiskLoop (drive : Option Nat) : Nat → DSt → Option Nat → Option Nat → Res DSt
  | _, s, none, _ => .ok s
  | 0, _, some _, _ => .loop
  | n+1, s, some d, p => do
    let dn ← dload s d
    if dn.disk = drive then
      match p with
      | none => .ok { s with disk := dn.next, heap := setF s.heap d none }
      | some q => do
        let qn ← dload s q
        .ok { s with heap := setF (setF s.heap q (some { qn with next := dn.next })) d none }
    else delDiskLoop drive n s dn.next (some d)

/-- `del_disk`, device.c 200-222.  Line 205 compares the list head (a list node) with the drive
pointer; modelled as written: when both are NULL, `disk->next` is a null dereference. -/
def delDisk (s : DSt) (drive : Option Nat) : Res DSt :=
  if s.disk = drive then
    match s.disk with
    | none => .badptr
    | some h => do
      let hn ← dload s h
      .ok { s with disk := hn.next }
  else delDiskLoop drive s.fresh s s.disk none

/-- `step_disk`, device.c 227-235: the list of (step routine, drive) calls it makes. The step
routines are assumed not to change the list. -/
def stepLoop (s : DSt) : Nat → Option Nat → Res (List (Nat × Option Nat))
  | _, none => .ok []
  | 0, some _ => .loop
  | n+1, some d => do
    let dn ← dload s d
    let r ← stepLoop s n dn.next
    .ok ((dn.step, dn.disk) :: r)

def stepDisk (s : DSt) : Res (List (Nat × Option Nat)) := stepLoop s s.fresh s.disk

inductive DOp where
  | add (step : Nat) (drive : Option Nat)
  | del (drive : Option Nat)
  | step

/-- Run a history, collecting the calls made by each `step_disk`. -/
def drun : DSt → List DOp → Res (DSt × List (List (Nat × Option Nat)))
  | s, [] => .ok (s, [])
  | s, .add f d :: os => drun (addDisk s f d) os
  | s, .del d :: os => do
    let s ← delDisk s d
    drun s os
  | s, .step :: os => do
    let c ← stepDisk s
    let (s, rs) ← drun s os
    .ok (s, c :: rs)

end Verif.Device
