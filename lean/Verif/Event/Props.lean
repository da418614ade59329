import Verif.Event.Lemmas
/-
Properties C01-C05: the event scheduler.
`run cb n (init w) ops` is a whole history: `ops` mixes arbitrary simulator code that schedules
events with clock advances, `cb` gives arbitrary callbacks, and `n` bounds the number of steps
(outcome `fuel` = not finished, e.g. a callback that reschedules itself with delay 0 for ever).
-/
namespace Verif.Event

/-- C01. In every history of scheduling and advancing, an event scheduled at tick `m` with delay
`t` has fired exactly once, at tick `m + t`, with its own arguments, if that tick has been
reached, and has not fired otherwise. -/
theorem C01_fires_exactly_once_when_due {W} (cb : Ev → W → Prog W) (hcb : ∀ e w, (cb e w).SchedOnly)
    (ops : List (Op W)) (hops : ∀ o ∈ ops, o.SchedOnly) (n : Nat) (w : W) (s : St W)
    (h : run cb n (init w) ops = .ok s) (m id : Nat) (e : Ev) (t : Int)
    (hs : (m, Entry.sched id e t) ∈ s.log) :
    0 < t ∧ fires s.log id = if m + t ≤ s.now then [((m + t).toNat, e)] else [] := by
  rcases good_run (n := n) hcb hops (good_init w) with h' | ⟨s', h', hg⟩
  · rw [h'] at h; cases h
  · rw [h'] at h; cases h
    have := good_status hg hs
    refine ⟨this.1, this.2.2 ?_⟩
    exact run_no_cancel hcb hops h' id

/-- C01, other direction: nothing fires that was not scheduled for that very tick. -/
theorem C01_only_scheduled_events_fire {W} (cb : Ev → W → Prog W) (hcb : ∀ e w, (cb e w).SchedOnly)
    (s : St W) (hr : Reach cb s) (m id : Nat) (e : Ev) (hf : (m, Entry.fire id e) ∈ s.log) :
    ∃ k t, (k, Entry.sched id e t) ∈ s.log ∧ (m : Int) = k + t := by
  obtain ⟨a, r, hi, hb, hgt⟩ := good_reach hcb hr
  rw [r.log] at hf ⊢
  exact (hi.1.flt m id e hf).2.2

/-- C02. Firings happen in order of their due tick; on one tick the record scheduled later
(larger `id`) fires first.  The log is newest first, so each entry is compared with all older ones. -/
theorem C02_firing_order {W} (cb : Ev → W → Prog W) (hcb : ∀ e w, (cb e w).SchedOnly)
    (s : St W) (hr : Reach cb s) :
    (firings s.log).Pairwise (fun newer older =>
      older.1 < newer.1 ∨ (older.1 = newer.1 ∧ newer.2 < older.2)) := by
  obtain ⟨a, r, hi, hb, hgt⟩ := good_reach hcb hr
  rw [r.log]
  refine List.Pairwise.imp ?_ hi.1.forder
  intro a b h
  omega

/-- C03. A zero delay runs the callback at once: the call is exactly a run of the callback's
code, with one log entry and no change of its own to the queue. -/
theorem C03_zero_delay_is_a_call {W} (cb : Ev → W → Prog W) (n : Nat) (s : St W) (w : W) (e : Ev) (s' : St W)
    (h : exec cb n { s with w := w, log := (s.now, .imm e) :: s.log } (cb e w) = .ok s') :
    exec cb (n + 1) s (.sched w e 0 .ret) = exec cb n s' (.ret s'.w) := by
  simp [exec, h]

/-- C03. In particular a callback that schedules nothing leaves the whole queue untouched. -/
theorem C03_zero_delay_leaves_queue {W} (cb : Ev → W → Prog W) (n : Nat) (s : St W) (w w' : W) (e : Ev)
    (hcb : cb e w = .ret w') :
    exec cb (n + 2) s (.sched w e 0 .ret) = .ok { s with w := w', log := (s.now, .imm e) :: s.log } := by
  simp [exec, hcb]

/-- C04. No history of scheduling and advancing touches a freed or unallocated record. -/
theorem C04_no_use_after_free {W} (cb : Ev → W → Prog W) (hcb : ∀ e w, (cb e w).SchedOnly)
    (ops : List (Op W)) (hops : ∀ o ∈ ops, o.SchedOnly) (n : Nat) (w : W) :
    run cb n (init w) ops ≠ .uaf := by
  intro h
  rcases good_run (n := n) hcb hops (good_init w) with h' | ⟨s', h', -⟩ <;> rw [h'] at h <;> cases h

/-- C04. After any history the queue is a doubly linked list of exactly the allocated records
(links agree in both directions, nothing leaks). -/
theorem C04_well_linked {W} (cb : Ev → W → Prog W) (hcb : ∀ e w, (cb e w).SchedOnly)
    (ops : List (Op W)) (hops : ∀ o ∈ ops, o.SchedOnly) (n : Nat) (w : W) (s : St W)
    (h : run cb n (init w) ops = .ok s) : ∃ l, WellLinked s l := by
  rcases good_run (n := n) hcb hops (good_init w) with h' | ⟨s', h', hg⟩ <;> rw [h'] at h <;> cases h
  exact good_linked hg

/-- C04. Every stored time lies between 0 and the delay its caller passed, so the C `int`
arithmetic on times cannot overflow. -/
theorem C04_times_in_range {W} (cb : Ev → W → Prog W) (hcb : ∀ e w, (cb e w).SchedOnly)
    (s : St W) (hr : Reach cb s) (p : Nat) (nd : Node) (hp : s.heap p = some nd) :
    0 ≤ nd.time ∧ ∃ m t, (m, Entry.sched p nd.ev t) ∈ s.log ∧ nd.time ≤ t :=
  good_times (good_reach hcb hr) hp

/-- C04. If callbacks themselves never use delay 0, every history terminates normally. -/
theorem C04_terminates {W} (cb : Ev → W → Prog W) (hcb : ∀ e w, (cb e w).PosOnly)
    (ops : List (Op W)) (hops : ∀ o ∈ ops, o.SchedOnly) (w : W) :
    ∃ N s, ∀ n, N ≤ n → run cb n (init w) ops = .ok s := by
  obtain ⟨N, a', h⟩ := aRun_term cb hcb ops hops (aInit w)
  have hm := fun n => run_rep cb n ops (init w) (aInit w) (init_rep w) (by simp [aInit]) rfl
  have h1 := hm N
  rw [h N (Nat.le_refl _)] at h1
  obtain ⟨s, e1, r1⟩ := h1
  refine ⟨N, s, fun n hn => ?_⟩
  have h2 := hm n
  rw [h n hn] at h2
  obtain ⟨s2, e2, r2⟩ := h2
  rw [e2]
  -- both represent the same abstract state, hence are equal
  have hheap : s2.heap = s.heap := by
    funext p
    by_cases hp : p ∈ a'.items.map Item.id
    · have aux : ∀ (xs : List Item) (pr : Option Nat) (b : Int) (h1 h2 : Nat → Option Node),
          Seg h1 pr b xs none → Seg h2 pr b xs none → ∀ q ∈ xs.map Item.id, h1 q = h2 q := by
        intro xs
        induction xs with
        | nil => intro _ _ _ _ _ _ q hq; simp at hq
        | cons x xs ih =>
          intro pr b h1 h2 hs1 hs2 q hq
          simp only [List.map_cons, List.mem_cons] at hq
          rcases hq with rfl | hq
          · rw [hs1.1, hs2.1]
          · exact ih _ _ _ _ hs1.2 hs2.2 q hq
      exact aux _ _ _ _ _ r2.seg r1.seg p hp
    · rw [r2.leak p hp, r1.leak p hp]
  cases s2; cases s
  simp only [Out.ok.injEq, St.mk.injEq]
  have := r2.head.trans r1.head.symm
  have := r2.tail.trans r1.tail.symm
  have := r2.fresh.trans r1.fresh.symm
  have := r2.w.trans r1.w.symm
  have := r2.now.trans r1.now.symm
  have := r2.log.trans r1.log.symm
  simp_all

/-- The full statement of C05: from any state reached by scheduling and advancing, with some
pending record matching `(dev, func)`, cancelling touches no freed record, and afterwards no
history of scheduling and advancing does either. -/
def CancelIsSafe : Prop :=
  ∀ (cb : Ev → Unit → Prog Unit), (∀ e w, (cb e w).SchedOnly) →
  ∀ (ops ops' : List (Op Unit)), (∀ o ∈ ops, o.SchedOnly) → (∀ o ∈ ops', o.SchedOnly) →
  ∀ (dev func n : Nat),
    run cb n (init ()) (ops ++ .code (fun w => .cancel w dev func .ret) :: ops') ≠ .uaf

def evA : Ev := ⟨1, 1, 0, 0⟩
def evB : Ev := ⟨1, 2, 0, 0⟩

/-- C05 is violated by the code: schedule A (5 ticks) and B (10 ticks), cancel B, advance; A's
record still points to the freed record of B. -/
theorem C05_violated_cancel_behind_head : ¬ CancelIsSafe := by
  intro h
  refine h (fun _ w => .ret w) (fun _ _ => trivial)
    [.code (fun w => .sched w evA 5 .ret), .code (fun w => .sched w evB 10 .ret)]
    (List.replicate 5 .advance) ?_ ?_ 1 2 10 rfl
  · intro o ho
    simp only [List.mem_cons, List.not_mem_nil, or_false] at ho
    rcases ho with rfl | rfl <;> intro w <;> exact ⟨by omega, fun _ => trivial⟩
  · intro o ho
    rw [List.eq_of_mem_replicate ho]
    trivial

/-- C05, partial: when the matching record is the first of the queue (and the call is not made
from a callback), cancel succeeds, logs exactly that record as cancelled, keeps everything else,
and the result is again a state of the safe set `Reach`. -/
theorem C05_cancel_first_partial {W} (cb : Ev → W → Prog W) (hcb : ∀ e w, (cb e w).SchedOnly)
    (s : St W) (hr : Reach cb s) (p : Nat) (nd : Node) (hh : s.head = some p) (hn : s.heap p = some nd) :
    ∃ s', cancelEvent s nd.ev.dev nd.ev.func = .ok s' ∧ Reach cb s' ∧
      s'.log = (s.now, .cancel p) :: s.log ∧ s'.now = s.now ∧ s'.w = s.w := by
  obtain ⟨s', h1, -, h3, h4, h5⟩ := good_cancelHead (good_reach hcb hr) hh hn
  exact ⟨s', h1, Reach.cancelHead hr hh hn h1, h3, h4, h5⟩

/-- C05, partial: cancelling something that is not pending changes nothing. -/
theorem C05_cancel_absent {W} (cb : Ev → W → Prog W) (hcb : ∀ e w, (cb e w).SchedOnly)
    (s : St W) (hr : Reach cb s) (dev func : Nat)
    (hm : ∀ p nd, s.heap p = some nd → ¬ (nd.ev.dev = dev ∧ nd.ev.func = func)) :
    cancelEvent s dev func = .ok s :=
  good_cancelMiss (good_reach hcb hr) hm

/-- C05, partial: in every later state of the safe set, cancelled events have never fired and all
others fire exactly once on their own tick.  Missing: matches behind the head of the queue and
cancels inside callbacks, which the code gets wrong. -/
theorem C05_cancelled_never_fire_others_do_partial {W} (cb : Ev → W → Prog W) (hcb : ∀ e w, (cb e w).SchedOnly)
    (s : St W) (hr : Reach cb s) (m id : Nat) (e : Ev) (t : Int) (hs : (m, Entry.sched id e t) ∈ s.log) :
    (Cancelled s.log id → fires s.log id = []) ∧
    (¬ Cancelled s.log id → fires s.log id = if m + t ≤ s.now then [((m + t).toNat, e)] else []) :=
  (good_status (good_reach hcb hr) hs).2

/-- C05, partial: the safe set never touches a freed record. -/
theorem C05_safe_set_no_use_after_free_partial {W} (cb : Ev → W → Prog W) (hcb : ∀ e w, (cb e w).SchedOnly)
    (s : St W) (hr : Reach cb s) (n : Nat) :
    advance cb n s ≠ .uaf ∧ (∀ p : Prog W, p.SchedOnly → exec cb n s p ≠ .uaf) := by
  have hg := good_reach hcb hr
  refine ⟨?_, fun p hp => ?_⟩
  · intro h
    rcases good_advance hcb (n := n) hg with h' | ⟨s', h', -⟩ <;> rw [h'] at h <;> cases h
  · intro h
    rcases good_exec hcb (n := n) hp hg with h' | ⟨s', h', -⟩ <;> rw [h'] at h <;> cases h

/-! Non-vacuity: a callback that reschedules itself every 3 ticks, plus two other events. -/

def demoCb : Ev → Nat → Prog Nat := fun e w =>
  if e = evA then .sched (w + 1) evA 3 .ret else .ret (w + 100)

def demoOps : List (Op Nat) :=
  [.code (fun w => .sched w evA 2 (fun w => .sched w evB 2 (fun w => .sched w evB 0 .ret))),
   .advance, .advance, .advance, .advance, .advance]

theorem demoCb_pos : ∀ e w, (demoCb e w).PosOnly := by
  intro e w; unfold demoCb; split
  · exact ⟨by omega, fun _ => trivial⟩
  · trivial

theorem demoOps_ok : ∀ o ∈ demoOps, o.SchedOnly := by
  intro o ho
  simp only [demoOps, List.mem_cons, List.not_mem_nil, or_false] at ho
  rcases ho with rfl | rfl | rfl | rfl | rfl | rfl
  · intro w; exact ⟨by omega, fun _ => ⟨by omega, fun _ => ⟨by omega, fun _ => trivial⟩⟩⟩
  all_goals trivial

/-- The demo history ends normally and its log shows the expected firings. -/
example : ∃ s, run demoCb 10 (init 0) demoOps = .ok s ∧ firings s.log = [(5, 2), (2, 0), (2, 1)] ∧
    s.now = 5 ∧ (0, Entry.sched 0 evA 2) ∈ s.log ∧ s.w = 202 := by
  refine ⟨_, rfl, ?_, ?_, ?_, ?_⟩ <;> decide

/-- A state of the safe set in which a cancel of the first record applies. -/
example : ∃ (s : St Nat) (p : Nat) (nd : Node), Reach demoCb s ∧ s.head = some p ∧ s.heap p = some nd := by
  rcases h : run demoCb 10 (init 0) demoOps with s | _ | _
  · refine ⟨s, 3, ?_⟩
    have hr : Reach demoCb s := reach_of_run demoOps_ok (Reach.init 0) h
    have h2 : run demoCb 10 (init 0) demoOps = .ok s := h
    refine ⟨⟨none, none, 3, evA⟩, hr, ?_⟩
    cases h2
    exact ⟨rfl, rfl⟩
  · cases h
  · cases h

end Verif.Event
