/-
Pointer-level model of the event scheduler, /repo/src/event.c and /repo/src/event.h.

Event records live in a heap `Nat → Option Node`; `none` means "never allocated or freed".
Any read or write of such an address is the distinct outcome `Out.uaf`.
Callbacks are arbitrary programs over an arbitrary world `W` that may call `add_event`
and `cancel_event` themselves.  `now`, `log` and the never-reused addresses are ghost state
that the C code does not have; no C decision reads them.

Simplifications: `malloc` never fails and never reuses an address; C `int` times are `Int`
(`Verif.Event.Props` proves the stored times never exceed the delay the caller supplied, so no
32-bit overflow can occur); logging (`log_event`) is dropped.
-/
namespace Verif.Event

/-- What identifies a callback invocation: event.h 31-42 (`dev`, `func`, `arg`, `iarg`). -/
structure Ev where
  dev  : Nat
  func : Nat
  arg  : Nat
  iarg : Int
deriving DecidableEq, Repr

/-- `struct _event`, event.h 33-42. -/
structure Node where
  next : Option Nat
  prev : Option Nat
  time : Int
  ev   : Ev
deriving DecidableEq, Repr

/-- Outcome of running C code: normal return, access to a freed or unallocated record, or
not finished within the given number of steps (unbounded recursion or loop). -/
inductive Out (α : Type) where
  | ok (a : α)
  | uaf
  | fuel
deriving Repr

/-- Sequencing of C statements. -/
def Out.bind {α β : Type} (x : Out α) (f : α → Out β) : Out β :=
  match x with
  | .ok a => f a
  | .uaf => .uaf
  | .fuel => .fuel

instance : Monad Out where
  pure := Out.ok
  bind := Out.bind

/-- Ghost log entries. -/
inductive Entry where
  /-- `add_event` with a non-zero delay queued record `id`. -/
  | sched (id : Nat) (ev : Ev) (delay : Int)
  /-- `add_event` with delay 0 called the callback at once. -/
  | imm (ev : Ev)
  /-- `advance` called the callback of record `id`. -/
  | fire (id : Nat) (ev : Ev)
  /-- `cancel_event` freed record `id`. -/
  | cancel (id : Nat)
deriving DecidableEq, Repr

/-- Globals `event_head`, `event_tail` (event.c 29), the heap, the rest of the simulator's
state `w`, and ghost state. -/
structure St (W : Type) where
  heap  : Nat → Option Node
  head  : Option Nat
  tail  : Option Nat
  fresh : Nat
  w     : W
  /-- ghost: number of `advance` calls so far -/
  now   : Nat
  /-- ghost: newest entry first, each with the tick it happened on -/
  log   : List (Nat × Entry)

/-- Code that runs in callbacks or in the main loop: any computation on the world interleaved
with calls of `add_event` and `cancel_event`; the continuation sees the world after the call
(a zero delay `add_event` runs another callback, which changes it). -/
inductive Prog (W : Type) where
  | ret (w : W)
  | sched (w : W) (e : Ev) (t : Int) (k : W → Prog W)
  | cancel (w : W) (dev func : Nat) (k : W → Prog W)

/-- Read through a pointer. -/
def load {W} (s : St W) (p : Nat) : Out Node :=
  match s.heap p with
  | some n => .ok n
  | none => .uaf

/-- Heap update. -/
def upd (h : Nat → Option Node) (p : Nat) (v : Option Node) : Nat → Option Node :=
  fun q => if q = p then v else h q

/-- Write through a pointer: the record must be allocated. -/
def modify {W} (s : St W) (p : Nat) (f : Node → Node) : Out (St W) :=
  match s.heap p with
  | some n => .ok { s with heap := upd s.heap p (some (f n)) }
  | none => .uaf

/-- `free`. -/
def free {W} (s : St W) (p : Nat) : Out (St W) :=
  match s.heap p with
  | some _ => .ok { s with heap := upd s.heap p none }
  | none => .uaf

/-- `init_event`, event.c 32-37. -/
def init {W} (w : W) : St W :=
  { heap := fun _ => none, head := none, tail := none, fresh := 0, w := w, now := 0, log := [] }

/-- The `do ... while` loop of `add_event`, event.c 69-91, and the append after it, 93-96.
`new` is `new_event`, `p` is `ptr_event`.  The first argument bounds the walk. -/
def addLoop {W} : Nat → St W → Nat → Nat → Out (St W)
  | 0, _, _, _ => .fuel
  | n+1, s, new, p => do
    let nn ← load s new
    let pn ← load s p
    if nn.time ≤ pn.time then
      let s ← modify s p (fun x => { x with time := x.time - nn.time })
      let pn ← load s p
      let s ← modify s new (fun x => { x with prev := pn.prev })
      let s ← modify s new (fun x => { x with next := some p })
      let s ← modify s p (fun x => { x with prev := some new })
      let nn ← load s new
      match nn.prev with
      | some q => modify s q (fun x => { x with next := some new })
      | none => .ok { s with head := some new }
    else
      let s ← modify s new (fun x => { x with time := x.time - pn.time })
      match pn.next with
      | some q => addLoop n s new q
      | none =>
        let s ← modify s new (fun x => { x with prev := s.tail })
        match s.tail with
        | some q =>
          let s ← modify s q (fun x => { x with next := some new })
          .ok { s with tail := some new }
        | none => .uaf

/-- `add_event` with a non-zero time, event.c 53-97 (allocation, empty-list case, insertion). -/
def insertEvent {W} (s : St W) (e : Ev) (t : Int) : Out (St W) :=
  let new := s.fresh
  let s := { s with
    heap := upd s.heap new (some { next := none, prev := none, time := t, ev := e })
    fresh := new + 1
    log := (s.now, .sched new e t) :: s.log }
  match s.head with
  | none => .ok { s with head := some new, tail := some new }
  | some p => addLoop s.fresh s new p

/-- The body of `cancel_event` once the record is found, event.c 113-133.  Line 125 assigns
`ptr_event->next` to itself instead of unlinking; that is modelled as written. -/
def cancelFound {W} (s : St W) (p : Nat) (pn : Node) : Out (St W) := do
  let s ← match pn.next with
    | some q =>
      let s ← modify s q (fun x => { x with time := x.time + pn.time })
      modify s q (fun x => { x with prev := pn.prev })
    | none => .ok { s with tail := pn.prev }
  let pn ← load s p
  let s ← match pn.prev with
    | some _ => modify s p (fun x => { x with next := x.next })
    | none => .ok { s with head := pn.next }
  let s ← free s p
  .ok { s with log := (s.now, .cancel p) :: s.log }

/-- The search loop of `cancel_event`, event.c 108-138. -/
def cancelLoop {W} : Nat → St W → Nat → Nat → Nat → Out (St W)
  | 0, _, _, _, _ => .fuel
  | n+1, s, dev, func, p => do
    let pn ← load s p
    if pn.ev.dev = dev ∧ pn.ev.func = func then
      cancelFound s p pn
    else
      match pn.next with
      | some q => cancelLoop n s dev func q
      | none => .ok s

/-- `cancel_event`, event.c 100-139. -/
def cancelEvent {W} (s : St W) (dev func : Nat) : Out (St W) :=
  match s.head with
  | none => .ok s
  | some p => cancelLoop s.fresh s dev func p

/-- Run a piece of simulator code.  `cb` gives the program of every callback.  The `sched`
case is `add_event` as a whole, event.c 40-98: time 0 calls the callback immediately (48-51). -/
def exec {W} (cb : Ev → W → Prog W) : Nat → St W → Prog W → Out (St W)
  | 0, _, _ => .fuel
  | _+1, s, .ret w => .ok { s with w := w }
  | n+1, s, .sched w e t k => do
    let s := { s with w := w }
    let s ← if t = 0 then exec cb n { s with log := (s.now, .imm e) :: s.log } (cb e w)
            else insertEvent s e t
    exec cb n s (k s.w)
  | n+1, s, .cancel w dev func k => do
    let s ← cancelEvent { s with w := w } dev func
    exec cb n s (k s.w)

/-- The `while` loop of `advance`, event.c 152-162.  `p` is `ptr_event`. -/
def advLoop {W} (cb : Ev → W → Prog W) : Nat → St W → Option Nat → Out (St W)
  | 0, _, _ => .fuel
  | _+1, s, none => .ok s
  | n+1, s, some p => do
    let pn ← load s p
    if pn.time = 0 then
      let s ← exec cb n { s with log := (s.now, .fire p pn.ev) :: s.log } (cb pn.ev s.w)
      let pn ← load s p
      let s := { s with head := pn.next }
      let s ← free s p
      match s.head with
      | some q =>
        let s ← modify s q (fun x => { x with prev := none })
        advLoop cb n s (some q)
      | none => advLoop cb n { s with tail := none } none
    else .ok s

/-- `advance`, event.c 141-163. -/
def advance {W} (cb : Ev → W → Prog W) (n : Nat) (s : St W) : Out (St W) :=
  let s := { s with now := s.now + 1 }
  match s.head with
  | none => .ok s
  | some p => do
    let s ← modify s p (fun x => { x with time := x.time - 1 })
    advLoop cb n s (some p)

/-- One step of the main loop: code of the simulator, or a clock advance. -/
inductive Op (W : Type) where
  | code (p : W → Prog W)
  | advance

/-- Run a whole history. -/
def run {W} (cb : Ev → W → Prog W) (n : Nat) : St W → List (Op W) → Out (St W)
  | s, [] => .ok s
  | s, .code p :: ops => do
    let s ← exec cb n s (p s.w)
    run cb n s ops
  | s, .advance :: ops => do
    let s ← advance cb n s
    run cb n s ops

end Verif.Event
