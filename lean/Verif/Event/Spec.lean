import Verif.Event.Model
/-
Abstract scheduler: a list of pending items with absolute due ticks.  Used as the middle layer
of the refinement proof.  The property theorems in `Verif.Event.Props` speak about the pointer
model and its log only.
-/
namespace Verif.Event

structure Item where
  id  : Nat
  ev  : Ev
  due : Int
deriving DecidableEq, Repr

structure Abs (W : Type) where
  items : List Item
  fresh : Nat
  w     : W
  now   : Nat
  log   : List (Nat × Entry)
  /-- the head item's callback is running -/
  busy  : Bool

/-- insert before the first item that is not due earlier -/
def ins (x : Item) : List Item → List Item
  | [] => [x]
  | y :: ys => if x.due ≤ y.due then x :: y :: ys else y :: ins x ys

/-- outcome of the abstract machine; `bug` marks the cancel calls the C code gets wrong -/
inductive AOut (α : Type) where
  | ok (a : α)
  | bug
  | fuel

def AOut.bind {α β : Type} (x : AOut α) (f : α → AOut β) : AOut β :=
  match x with
  | .ok a => f a
  | .bug => .bug
  | .fuel => .fuel

instance : Monad AOut where
  pure := AOut.ok
  bind := AOut.bind

def Item.hits (x : Item) (dev func : Nat) : Bool := x.ev.dev = dev ∧ x.ev.func = func

def aInsert {W} (a : Abs W) (e : Ev) (t : Int) : Abs W :=
  { a with items := ins ⟨a.fresh, e, a.now + t⟩ a.items
           fresh := a.fresh + 1
           log := (a.now, .sched a.fresh e t) :: a.log }

def aCancel {W} (a : Abs W) (dev func : Nat) : AOut (Abs W) :=
  match a.items with
  | [] => .ok a
  | x :: xs =>
    if x.hits dev func then
      if a.busy then .bug
      else .ok { a with items := xs, log := (a.now, .cancel x.id) :: a.log }
    else if xs.any (fun y => y.hits dev func) then .bug else .ok a

def aExec {W} (cb : Ev → W → Prog W) : Nat → Abs W → Prog W → AOut (Abs W)
  | 0, _, _ => .fuel
  | _+1, a, .ret w => .ok { a with w := w }
  | n+1, a, .sched w e t k => do
    let a := { a with w := w }
    let a ← if t = 0 then aExec cb n { a with log := (a.now, .imm e) :: a.log } (cb e w)
            else if t < 0 then .bug else .ok (aInsert a e t)
    aExec cb n a (k a.w)
  | n+1, a, .cancel w dev func k => do
    let a ← aCancel { a with w := w } dev func
    aExec cb n a (k a.w)

def aAdvLoop {W} (cb : Ev → W → Prog W) : Nat → Abs W → AOut (Abs W)
  | 0, _ => .fuel
  | n+1, a =>
    match a.items with
    | [] => .ok a
    | x :: _ =>
      if x.due = a.now then do
        let a ← aExec cb n { a with log := (a.now, .fire x.id x.ev) :: a.log, busy := true } (cb x.ev a.w)
        aAdvLoop cb n { a with items := a.items.tail, busy := false }
      else .ok a

def aAdvance {W} (cb : Ev → W → Prog W) (n : Nat) (a : Abs W) : AOut (Abs W) :=
  match a.items with
  | [] => .ok { a with now := a.now + 1 }
  | _ :: _ => aAdvLoop cb n { a with now := a.now + 1 }

def aRun {W} (cb : Ev → W → Prog W) (n : Nat) : Abs W → List (Op W) → AOut (Abs W)
  | a, [] => .ok a
  | a, .code p :: ops => do
    let a ← aExec cb n a (p a.w)
    aRun cb n a ops
  | a, .advance :: ops => do
    let a ← aAdvance cb n a
    aRun cb n a ops

def aInit {W} (w : W) : Abs W :=
  { items := [], fresh := 0, w := w, now := 0, log := [], busy := false }

end Verif.Event
