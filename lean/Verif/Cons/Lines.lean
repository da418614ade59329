import Verif.Cons.Line
/-!
# Two lines at once, and the carriage return of the sending thread (C158, C159)
-/
namespace Verif.Cons
open Verif.Bus
open Verif.Card (Res)

/-! ## C158 -/

theorem filt_plain (cs : List Nat) (h : ∀ c ∈ cs, c < 255) : filt .norm cs = (cs, .norm) := by
  induction cs with
  | nil => rfl
  | cons c cs ih =>
    have e := filt_append .norm [c] cs
    rw [List.singleton_append] at e
    have hc : c ≠ 255 := by have := h c List.mem_cons_self; omega
    have e1 : filt .norm [c] = ([c], .norm) := by simp [filt, hc]
    rw [e, e1]
    simp only [ih (fun c m => h c (List.mem_cons_of_mem _ m))]
    rfl

theorem kept_plain (cs : List Nat) (h : ∀ c ∈ cs, Spec.special c = false) : kept cs = cs := by
  unfold kept; rw [List.filter_eq_self]; intro c m; rw [h c m]; rfl

/-- The end of the block is signalled to the CPU (bit 2 of the signals of the terminal). -/
def Spec.BlockEnds (t : T) : Prop := tst (func t 0).2.1 0x20 = true

theorem no_end {t : T} (h : 0 < t.inLen) : ¬ Spec.BlockEnds t := by
  unfold Spec.BlockEnds func
  split
  · show ¬ tst 0 32 = true
    decide
  · have e : signals t 0 = t := by unfold signals; simp [tst]
    simp only [e]
    unfold tagsOut
    simp only [h, if_true]
    repeat' split
    all_goals decide

theorem read_some (n : Nat) (cs : List Nat) (t : T) (w : Wf t) (hf : t.inFlg = true) (hp : pending t = cs) (ha : ∀ c ∈ cs, c < 128)
    (hn : n ≤ cs.length) :
    ∃ t', run t (List.replicate n .read) = .ok (t', (cs.take n).map Spec.ebcdic) ∧ t'.inLen = cs.length - n := by
  induction n generalizing t cs with
  | zero => exact ⟨t, by simp [run], by rw [← hp, pending_length]; rfl⟩
  | succ n ih =>
    cases cs with
    | nil => simp at hn
    | cons c cs =>
      obtain ⟨t1, a1, a2, a3, a4, a5, a6⟩ := inp_spec t w hf c cs hp (ha c List.mem_cons_self)
      obtain ⟨t2, b1, b2⟩ := ih cs t1 a2 a3 a6 (fun c h => ha c (List.mem_cons_of_mem _ h)) (by simpa using hn)
      refine ⟨t2, ?_, by rw [b2, List.length_cons]; omega⟩
      show (inp t).bind _ = _
      rw [a1]
      show (run t1 (List.replicate n .read)).bind _ = _
      rw [b1]
      rfl

/-- **C158** is violated: when the operator types a line, return, and the beginning `l2` of the next line before the CPU has
taken the first (a text pasted into the terminal), the CPU gets both as one line: it gets the characters of `l2` behind those
of `l1`, and at no time before the last of them is the end of the block signalled. -/
theorem C158_violated_merged (t : T) (he : Spec.Enabled t) (h0 : t.inLen = 0) (l1 l2 : List Nat)
    (hc : ∀ c ∈ l1 ++ l2, c < 128 ∧ Spec.special c = false) (hl : l1.length + 1 + l2.length ≤ 256) :
    ∃ t1, packet t (l1 ++ 13 :: l2) = .ok t1 ∧ ∀ n ≤ l1.length + l2.length,
      ∃ t2, run t1 (List.replicate n .read) = .ok (t2, ((l1 ++ l2).take n).map Spec.ebcdic) ∧
        (n < l1.length + l2.length → ¬ Spec.BlockEnds t2) := by
  have hlen : (l1 ++ 13 :: l2).length = l1.length + 1 + l2.length := by simp; omega
  obtain ⟨t1, a1, a2, a3, a4, a5, a6⟩ := packetLoop_spec (l1 ++ 13 :: l2) t he.reach.wf he.flag (by rw [h0, hlen]; omega)
  have hp : pending t = [] := List.eq_nil_of_length_eq_zero (by rw [pending_length, h0])
  have hf : filt .norm (l1 ++ 13 :: l2) = (l1 ++ 13 :: l2, .norm) := by
    apply filt_plain
    intro c m
    rcases List.mem_append.mp m with m | m
    · have := (hc c (List.mem_append_left _ m)).1; omega
    · rcases List.mem_cons.mp m with e | m
      · omega
      · have := (hc c (List.mem_append_right _ m)).1; omega
  have hk : pending t1 = l1 ++ l2 := by
    rw [a6, hp, he.tns, hf, List.nil_append]
    show kept (l1 ++ 13 :: l2) = _
    rw [kept_append, kept_plain l1 (fun c m => (hc c (List.mem_append_left _ m)).2)]
    congr 1
    show kept ([13] ++ l2) = _
    rw [kept_append, kept_plain l2 (fun c m => (hc c (List.mem_append_right _ m)).2)]
    rfl
  refine ⟨t1, ?_, ?_⟩
  · unfold packet
    rw [if_neg (by rw [he.cons]; simp), if_neg (by simp), List.take_of_length_le (by rw [hlen]; omega)]
    exact a1
  · intro n hn
    obtain ⟨t2, b1, b2⟩ := read_some n (l1 ++ l2) t1 a2 a3 hk (fun c m => (hc c m).1) (by simpa using hn)
    refine ⟨t2, b1, fun hlt => no_end ?_⟩
    rw [b2, List.length_append]; omega

/-- Two lines of a program pasted into a console that waits for input. -/
example : ∃ t1, packet started ([97, 98] ++ 13 :: [99]) = .ok t1 ∧
    ∃ t2, run t1 (List.replicate 3 .read) = .ok (t2, [97, 98, 99].map Spec.ebcdic) := by
  obtain ⟨t1, h1, h2⟩ := C158_violated_merged started started_enabled rfl [97, 98] [99] (by decide) (by decide)
  obtain ⟨t2, h3, -⟩ := h2 3 (by decide)
  exact ⟨t1, h1, t2, h3⟩

/-! ## C159 -/

namespace Race

/-- Where the sending thread is in lines 998-1004 of model1052.c. -/
inductive Pc where
  /-- `if (ctx->out_flg)` -/
  | test
  /-- `send(ctx->cons, &ctx->out_buf, 1, 0)` -/
  | send
  /-- `ctx->out_flg = 0` -/
  | clear
  /-- `if (ctx->out_buf == '\r') send(ctx->cons, "\n", 1, 0)` -/
  | feed
deriving DecidableEq, Repr

/-- The two variables both threads use, and what the terminal got. -/
structure P where
  buf : Nat := 0
  flg : Bool := false
  pc : Pc := .test
  sent : List Nat := []
deriving DecidableEq

/-- The next step of the sending thread. -/
def P.thread (p : P) : P :=
  match p.pc with
  | .test => if p.flg then { p with pc := .send } else p
  | .send => { p with sent := p.sent ++ [p.buf], pc := .clear }
  | .clear => { p with flg := false, pc := .feed }
  | .feed => { p with sent := if p.buf = 13 then p.sent ++ [10] else p.sent, pc := .test }

/-- What the two threads do in turn: the CPU prints the character `c` (`model1052_out`, lines 764-771), or the sending
thread makes a step.  The CPU prints only when the terminal signals that it is ready (`send_callback`, lines 162-181), that
is, when `out_flg` is off; otherwise it tries again later. -/
inductive Turn where
  | print (c : Nat)
  | thread

/-- A history: the state and the characters printed. -/
def P.go (p : P) : List Turn → P × List Nat
  | [] => (p, [])
  | .print c :: ts =>
    if p.flg then p.go ts
    else (({ p with buf := c, flg := true } : P).go ts).map id (c :: ·)
  | .thread :: ts => p.thread.go ts

/-- What the terminal has to get. -/
def expected (cs : List Nat) : List Nat := cs.flatMap fun c => if c = 13 then [13, 10] else [c]

/-- What is still to come of the character being sent. -/
def P.rest (p : P) : List Nat :=
  match p.pc with
  | .test => if p.flg then expected [p.buf] else []
  | .send => expected [p.buf]
  | .clear => if p.buf = 13 then [10] else []
  | .feed => if p.buf = 13 then [10] else []

/-- **C159** is violated: if the CPU prints a carriage return between the third and the fourth of these steps, the character
before it gets a line feed of its own; if it prints another character after a carriage return, the line feed is lost. -/
theorem C159_violated_line_feed (c : Nat) (hc : c ≠ 13) :
    (∃ ts, (({} : P).go ts).2 = [c, 13] ∧ (({} : P).go ts).1.pc = .test ∧ (({} : P).go ts).1.flg = false ∧
      (({} : P).go ts).1.sent = [c, 10, 13, 10]) ∧
    (∃ ts, (({} : P).go ts).2 = [13, c] ∧ (({} : P).go ts).1.pc = .test ∧ (({} : P).go ts).1.flg = false ∧
      (({} : P).go ts).1.sent = [13, c]) := by
  constructor
  · refine ⟨[.print c, .thread, .thread, .thread, .print 13, .thread, .thread, .thread, .thread, .thread], ?_⟩
    simp [P.go, P.thread]
  · refine ⟨[.print 13, .thread, .thread, .thread, .print c, .thread, .thread, .thread, .thread, .thread], ?_⟩
    simp [P.go, P.thread, hc]

/-- The CPU prints nothing between the last two steps of the thread. -/
def Calm : P → List Turn → Prop
  | _, [] => True
  | p, .print c :: ts => p.pc ≠ .feed ∧ (if p.flg then Calm p ts else Calm { p with buf := c, flg := true } ts)
  | p, .thread :: ts => Calm p.thread ts

theorem expected_cons (c : Nat) (cs : List Nat) : expected (c :: cs) = expected [c] ++ expected cs := by
  simp [expected]

/-- The flag is on between the test and its clearing. -/
def P.Ok (p : P) : Prop := (p.pc = .send ∨ p.pc = .clear → p.flg = true) ∧ (p.pc = .feed → p.flg = false)

theorem thread_ok {p : P} (h : p.Ok) : p.thread.Ok ∧ p.thread.sent ++ p.thread.rest = p.sent ++ p.rest := by
  obtain ⟨b, f, pc, s⟩ := p
  cases pc <;> cases f <;> by_cases hb : b = 13 <;>
    simp_all [P.thread, P.Ok, P.rest, expected]

/-- Part of **C159**: apart from that, the terminal gets exactly what was printed, in order, with a line feed after each
carriage return and nowhere else; `rest` is what the thread has still to send. -/
theorem C159_prints_partial (ts : List Turn) (p : P) (hp : p.Ok) (hc : Calm p ts) :
    (p.go ts).1.sent ++ (p.go ts).1.rest = p.sent ++ p.rest ++ expected (p.go ts).2 := by
  induction ts generalizing p with
  | nil => simp [P.go, expected]
  | cons t ts ih =>
    cases t with
    | thread =>
      obtain ⟨h1, h2⟩ := thread_ok hp
      have := ih p.thread h1 hc
      rw [h2] at this
      exact this
    | print c =>
      obtain ⟨h1, h2⟩ := hc
      unfold P.go
      cases hf : p.flg
      · rw [hf] at h2
        have hpc : p.pc = .test := by
          cases hq : p.pc
          · rfl
          · have := hp.1 (.inl hq); rw [hf] at this; cases this
          · have := hp.1 (.inr hq); rw [hf] at this; cases this
          · exact absurd hq h1
        have := ih { p with buf := c, flg := true } ⟨by simp [hpc], by simp [hpc]⟩ h2
        simp only [Bool.false_eq_true, if_false, Prod.map, id]
        rw [this, expected_cons]
        simp [P.rest, hpc, hf]
      · rw [hf] at h2
        simp only [if_true]
        exact ih p hp h2

/-- Such a history: two characters, the second printed when the thread is back at the test. -/
example : Calm {} [.print 193, .thread, .thread, .thread, .thread, .print 13, .thread] ∧ ({} : P).Ok := by
  simp [Calm, P.thread, P.Ok]

end Race

end Verif.Cons
