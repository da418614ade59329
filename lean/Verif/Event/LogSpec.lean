import Verif.Event.Model
/-
What the property theorems say, in terms of the ghost log and the shape of the queue.
Nothing here refers to how the queue works.
-/
namespace Verif.Event

/-- ticks on which record `id` fired, newest first, with the callback that ran -/
def fires (log : List (Nat × Entry)) (id : Nat) : List (Nat × Ev) :=
  log.filterMap fun | (m, .fire i e) => if i = id then some (m, e) else none
                    | _ => none

/-- all firings `(tick, id)`, newest first -/
def firings (log : List (Nat × Entry)) : List (Nat × Nat) :=
  log.filterMap fun | (m, .fire i _) => some (m, i)
                    | _ => none

def Cancelled (log : List (Nat × Entry)) (id : Nat) : Prop := ∃ m, (m, Entry.cancel id) ∈ log

/-- Code that never cancels and never passes a negative delay to `add_event`. -/
def Prog.SchedOnly {W} : Prog W → Prop
  | .ret _ => True
  | .sched _ _ t k => 0 ≤ t ∧ ∀ w, (k w).SchedOnly
  | .cancel _ _ _ _ => False

/-- Code that only schedules with positive delays. -/
def Prog.PosOnly {W} : Prog W → Prop
  | .ret _ => True
  | .sched _ _ t k => 0 < t ∧ ∀ w, (k w).PosOnly
  | .cancel _ _ _ _ => False

/-- All code in a history only schedules. -/
def Op.SchedOnly {W} : Op W → Prop
  | .code p => ∀ w, (p w).SchedOnly
  | .advance => True

/-- The queue is a proper doubly linked list `l` of exactly the allocated records. -/
def WellLinked {W} (s : St W) (l : List Nat) : Prop :=
  l.Nodup ∧ (∀ p, p ∈ l ↔ s.heap p ≠ none) ∧
  s.head = l.head? ∧ s.tail = l.getLast? ∧
  ∀ (i : Nat) (p : Nat), l[i]? = some p → ∃ nd, s.heap p = some nd ∧
    nd.next = l[i+1]? ∧ nd.prev = if i = 0 then none else l[i-1]?

/-- States reachable by scheduling, advancing, and those cancels that the C code gets right:
the match is the first record of the queue, or nothing matches; cancels are issued outside
of callbacks. -/
inductive Reach {W} (cb : Ev → W → Prog W) : St W → Prop
  | init (w : W) : Reach cb (init w)
  | code {s s' : St W} {n : Nat} {p : Prog W} : Reach cb s → p.SchedOnly → exec cb n s p = .ok s' → Reach cb s'
  | advance {s s' : St W} {n : Nat} : Reach cb s → advance cb n s = .ok s' → Reach cb s'
  | cancelHead {s s' : St W} {p : Nat} {nd : Node} : Reach cb s → s.head = some p → s.heap p = some nd →
      cancelEvent s nd.ev.dev nd.ev.func = .ok s' → Reach cb s'
  | cancelMiss {s s' : St W} {dev func : Nat} : Reach cb s →
      (∀ p nd, s.heap p = some nd → ¬ (nd.ev.dev = dev ∧ nd.ev.func = func)) →
      cancelEvent s dev func = .ok s' → Reach cb s'

end Verif.Event
