import Verif.Cpu50.Timer
import Verif.Cpu50.Props2

/-!
# Model 2050: the interval timer and external interruptions

C130: a tick steps the timer in storage and disturbs nothing else. C131: external interruptions.
C132: programs, ticks and external interruptions interleave.

`Pend e tk a s` says that the processor has found an exceptional condition before the
instruction at `a.ia`; `extDue s` that it is the timer or an external interruption which the
mask allows.
-/

namespace Verif.Cpu50
open Verif.S360
attribute [local irreducible] ros

/-- C130. When the timer has ticked, the processor steps the word at 80 between two instructions:
registers, condition code, PSW, storage keys and the rest of storage are what they were, and the
next instruction is the one which would have been next. A request for a timer interruption is
made when the timer goes from not negative to negative, and not otherwise; a request of the
interrupt key stays. -/
theorem C130_timer_step {e : Env} {tk : Bool} {a : Arch} {s : S} (ho : EnvOk e)
    (hm : 112 ≤ 4 * words e) (h : Pend e tk a s) (ht : s.timUp = true) (hk : a.Kept)
    (hi : InStore e a) (tick : Nat → Bool) :
    ∃ n s', run e tick n s = .ok s' ∧ (Ready e tk a.timerTick s' ∨ Pend e tk a.timerTick s') ∧
      s'.timIrq = (s.timIrq || spent (a.mem 20)) ∧ s'.intr = s.intr := by
  have hd : extDue s = true := by unfold extDue; rw [ht]; rfl
  obtain ⟨n, s', h1, h2⟩ := ((due_exec ho h hd).bind fun s1 h1 =>
    ext_exec ho h1 hd hk hm hi (fun h => by rw [ht] at h; cases h) h.may).run tick
      fun _ _ => h.may
  refine ⟨n, s', h1, ?_⟩
  rcases h2 with h2 | h2
  · exact h2
  · rw [ht] at h2; exact absurd h2.1 (by decide)

/-- C130. What a tick does, in words. -/
theorem C130_words (a : Arch) :
    a.timerTick.mem 20 = a.mem 20 - 0x600#32 ∧ (∀ i, i ≠ 20 → a.timerTick.mem i = a.mem i) ∧
    a.timerTick.gr = a.gr ∧ a.timerTick.fr = a.fr ∧ a.timerTick.cc = a.cc ∧
    a.timerTick.pm = a.pm ∧ a.timerTick.ia = a.ia ∧ a.timerTick.keys = a.keys ∧
    a.timerTick.key = a.key ∧ a.timerTick.amwp = a.amwp ∧ a.timerTick.mask = a.mask :=
  ⟨(if_pos (by decide) : (if 20 = 80 / 4 then a.mem 20 - 0x600#32 else a.mem 20) = _),
    fun _ hi => by unfold Arch.timerTick Arch.store; exact if_neg hi, rfl, rfl, rfl, rfl, rfl, rfl, rfl, rfl, rfl⟩

/-- C131. When an external interruption is requested and allowed by the mask, it is taken between
two instructions: the old PSW is stored at 24, the new one is loaded from 88, the code is 80 for
the timer and 40 for the interrupt key; the request is gone, but a request of the key stays when
the timer was served. If the timer is to be stepped, this is done first, and the request stays. -/
theorem C131_external {e : Env} {tk : Bool} {a : Arch} {s : S} (ho : EnvOk e)
    (hm : 112 ≤ 4 * words e) (h : Pend e tk a s) (hq : (s.timIrq || s.intr) = true)
    (hmask : a.mask &&& 1 ≠ 0) (hk : a.Kept)
    (hi : InStore e a) (hn : InStore e (interrupt a 24 (extCode s.timIrq) s.ILC))
    (tick : Nat → Bool) :
    ∃ n s', run e tick n s = .ok s' ∧
      ((Bd e tk (interrupt a 24 (extCode s.timIrq) s.ILC) s' ∧ s'.timIrq = false ∧
        s'.intr = (s.timIrq && s.intr)) ∨
       (Bd e tk a.timerTick s' ∧ s'.timIrq = (s.timIrq || spent (a.mem 20)) ∧
        s'.intr = s.intr)) := by
  have hmk : s.MASK = a.mask := by
    rcases h.at' with ⟨-, h1⟩ | ⟨-, h1⟩ | ⟨-, h1⟩ <;> exact congrArg Arch.mask h1
  have hd : extDue s = true := by
    unfold extDue
    have h2 : (a.mask &&& 1#8 != 0#8) = true := bne_iff_ne.2 hmask
    rw [hmk, Bool.or_comm s.intr, hq, h2]; simp
  obtain ⟨n, s', h1, h2⟩ := ((due_exec ho h hd).bind fun s1 h1 =>
    ext_exec ho h1 hd hk hm hi (fun _ => hn) h.may).run tick fun _ _ => h.may
  refine ⟨n, s', h1, ?_⟩
  rcases h2 with h2 | h2
  · exact .inr h2
  · exact .inl h2.2

theorem tick_kept {a : Arch} (h : a.Kept) : a.timerTick.Kept := h

/-- The state is one from which each event can be carried out. -/
structure Fine (e : Env) (a : Arch) : Prop where
  inst : InStore e a
  safe : ¬ Selfmod a
  next : (stepI (4 * words e) a).isSome

theorem interleave_exec {e : Env} (ho : EnvOk e) (hm : 112 ≤ 4 * words e) :
    ∀ (k : Nat) {a : Arch} {s : S}, Bd e true a s → a.Kept →
    (∀ l b, l.length ≤ k → events (4 * words e) l a = some b → Fine e b) →
    Ev e true (fun s' => ∃ l b, events (4 * words e) l a = some b ∧
      ((l.length = k ∧ Bd e true b s') ∨
       (l.length ≤ k ∧ Pend e true b s' ∧ extDue s' = false))) s
  | 0, a, s, h, _, _ => .now ⟨[], a, rfl, .inl ⟨rfl, h⟩⟩
  | k + 1, a, s, h, hk, hg => by
    have h0 : Fine e a := hg [] a (Nat.zero_le _) rfl
    -- one event
    have go : ∀ (v : Event) (b : Arch) (s1 : S), v.apply (4 * words e) a = some b → b.Kept →
        Bd e true b s1 → Ev e true (fun s' => ∃ l b, events (4 * words e) l a = some b ∧
          ((l.length = k + 1 ∧ Bd e true b s') ∨
           (l.length ≤ k + 1 ∧ Pend e true b s' ∧ extDue s' = false))) s1 := by
      intro v b s1 hv hkb h1
      refine Ev.bind (interleave_exec ho hm k h1 hkb fun l c hl hc => ?_) fun s2 h2 => .now ?_
      · refine hg (v :: l) c (Nat.succ_le_succ hl) ?_
        simp only [events, hv, Option.bind_some, hc]
      · obtain ⟨l, c, hc, h3⟩ := h2
        refine ⟨v :: l, c, by simp only [events, hv, Option.bind_some, hc], ?_⟩
        rcases h3 with ⟨h3, h4⟩ | ⟨h3, h4⟩
        · exact .inl ⟨congrArg Nat.succ h3, h4⟩
        · exact .inr ⟨Nat.succ_le_succ h3, h4⟩
    have fine : ∀ (v : Event) (b : Arch), v.apply (4 * words e) a = some b → InStore e b := by
      intro v b hv
      refine (hg [v] b (Nat.succ_le_succ (Nat.zero_le _)) ?_).inst
      simp only [events, hv, Option.bind_some]
    rcases h with h | h
    · obtain ⟨b, hb⟩ := Option.isSome_iff_exists.1 h0.next
      refine Ev.bind (stepI_exec ho hm h h0.inst hk hb h0.safe (fun h => nomatch h)
        (fine .instr b hb)) fun s1 h1 => ?_
      exact go .instr b s1 hb (stepI_kept hk hb) h1
    · cases hd : extDue s with
      | false => exact .now ⟨[], a, rfl, .inr ⟨Nat.zero_le _, h, hd⟩⟩
      | true =>
        have hmk : s.MASK = a.mask := by
          rcases h.at' with ⟨-, h1⟩ | ⟨-, h1⟩ | ⟨-, h1⟩ <;> exact congrArg Arch.mask h1
        have hx : s.timUp = false → ∀ t ilc, (Event.ext t ilc).apply (4 * words e) a =
            some (interrupt a 24 (extCode t) ilc) := by
          intro h1 t ilc
          unfold extDue at hd
          rw [h1, Bool.false_or, Bool.and_eq_true, hmk] at hd
          exact if_neg (bne_iff_ne.1 hd.1)
        refine Ev.bind ((due_exec ho h hd).bind fun s1 h1 => ext_exec ho h1 hd hk hm h0.inst
          (fun h1 => fine _ _ (hx h1 _ _)) rfl) fun s1 h1 => ?_
        rcases h1 with ⟨h1, -⟩ | ⟨h1, h2, -⟩
        · exact go .tick _ s1 rfl (tick_kept hk) h1
        · exact go _ _ s1 (hx h1 _ _) (interrupt_kept _ _ _ _) h2

/-- C132. Programs, ticks of the timer and external interruptions interleave: whatever ticks
come, what the processor does is a sequence of instructions, each whole and as the architecture
prescribes, of steps of the timer and of external interruptions allowed by the mask, for as many
of them as one likes, up to a condition of another kind (a channel, the operator, the wait
state). -/
theorem C132_interleaving {e : Env} {a : Arch} {s : S} (ho : EnvOk e) (hm : 112 ≤ 4 * words e)
    (k : Nat) (h : Ready e true a s) (hk : a.Kept)
    (hg : ∀ l b, l.length ≤ k → events (4 * words e) l a = some b → Fine e b)
    (tick : Nat → Bool) :
    ∃ n s', run e tick n s = .ok s' ∧ ∃ l b, events (4 * words e) l a = some b ∧
      ((l.length = k ∧ (Ready e true b s' ∨ Pend e true b s')) ∨
       (l.length ≤ k ∧ Pend e true b s' ∧ extDue s' = false)) :=
  (interleave_exec ho hm k (.inl h) hk hg).run tick fun _ _ => rfl

/-- The program visible state between two instructions, but for the address. -/
theorem Bd.visible {e : Env} {tk : Bool} {a : Arch} {s : S} (h : Bd e tk a s) :
    { archOf s with ia := a.ia } = a := by
  rcases h with h | h
  · exact h.visible
  · rcases h.at' with h2 | h2 | h2 <;> rw [← h2.2] <;> rfl

theorem Bd.mem {e : Env} {tk : Bool} {a : Arch} {s : S} (h : Bd e tk a s) : s.mem = a.mem :=
  congrArg Arch.mem h.visible

theorem Bd.key {e : Env} {tk : Bool} {a : Arch} {s : S} (h : Bd e tk a s) : s.KEY = a.key :=
  congrArg Arch.key h.visible

theorem Bd.mask {e : Env} {tk : Bool} {a : Arch} {s : S} (h : Bd e tk a s) : s.MASK = a.mask :=
  congrArg Arch.mask h.visible

/-! ### Concrete cases -/

/-- A loop `B 100` at 100, with the timer at `v`; the new external PSW at 88 branches to the loop
with external interruptions disallowed. -/
def looped (v : W) : Nat → W
  | 20 => v
  | 23 => 0x100
  | 0x40 => 0x47f00100
  | _ => 0

/-- The processor in the loop, external interruptions allowed, about to fetch, or (`w` is 14b)
about to handle an exceptional condition. -/
def startL (w : Nat) (tu ti ik : Bool) (v : W) : S :=
  { initMem := true, ms := .w1, ROAR := w, SAR := 0x100, IA := 0x100, mem := looped v, KEY := 3,
    AMWP := 1, MASK := 1, timUp := tu, timIrq := ti, intr := ik,
    LS := fun i => if i = 23 then 0x01310000 else 0 }

/-- Its architecture state. -/
def archL (v : W) : Arch :=
  { gr := fun _ => 0, fr := fun _ => 0, cc := 0, pm := 0, ia := 0x100, mem := looped v,
    keys := fun _ => 0, key := 3, amwp := 1, mask := 1, sys := 0x01310000 }

theorem startL_arch (w : Nat) (tu ti ik : Bool) (v : W) :
    archOf (startL w tu ti ik v) = archL v := by
  have h1 : ∀ i : BitVec 4, (3#2 ++ i : BitVec 6) ≠ 23 := by decide
  have h2 : ∀ i : BitVec 4, (2#2 ++ i : BitVec 6) ≠ 23 := by decide
  unfold archOf archL startL
  refine Arch.mk.injEq .. ▸ ⟨?_, ?_, rfl, rfl, rfl, rfl, rfl, rfl, rfl, rfl, rfl⟩
  · funext i; exact if_neg (h1 i)
  · funext i; exact if_neg (h2 i)

theorem startL_asks (w : Nat) (tu ti ik : Bool) (v : W) : Asks e64 true (startL w tu ti ik v) :=
  ⟨rfl, rfl, rfl, (by decide : (0x100#32).toNat ≤ (0xffff#32).toNat), (fun h => nomatch h),
    fun h => nomatch h⟩

theorem startL_pend (tu ti ik : Bool) (v : W) : Pend e64 true (archL v) (startL 0x14b tu ti ik v) :=
  ⟨rfl, .inl (startL_asks _ _ _ _ _), .inl ⟨rfl, startL_arch _ _ _ _ _⟩⟩

theorem startL_ready (tu ti ik : Bool) (v : W) : Ready e64 true (archL v) (startL 0x14a tu ti ik v) :=
  .even (startL_asks _ _ _ _ _) (by show (0#8).toNat < 16; decide) (.inl rfl) (startL_arch _ _ _ _ _)
    (by show (0x100#32).toNat % 4 = 0; decide) rfl

theorem archL_in (v : W) : InStore e64 (archL v) :=
  ⟨(by decide : (0x100#32).toNat % 2 = 0), (by decide : (0x100#32).toNat + 8 ≤ 4 * words e64)⟩

theorem archL_new (v : W) (c : BitVec 16) (ilc : BitVec 2) :
    InStore e64 (interrupt (archL v) 24 c ilc) :=
  ⟨(by decide : (0x100#32 &&& 0xffffff#32).toNat % 2 = 0),
    (by decide : (0x100#32 &&& 0xffffff#32).toNat + 8 ≤ 4 * words e64)⟩

theorem archL_kept (v : W) : (archL v).Kept := by
  show (0x01310000#32).extractLsb' 16 16 = (1#8 ++ 3#4 ++ 1#4)
  decide

/-- Not vacuous (C130): the timer runs out. -/
theorem C130_example (tick : Nat → Bool) : ∃ n s', run e64 tick n
    (startL 0x14b true false false 0x500#32) = .ok s' ∧ s'.mem 20 = 0xffffff00#32 ∧
    s'.KEY = 3 ∧ s'.timIrq = true := by
  obtain ⟨n, s', h1, h2, h3, -⟩ := C130_timer_step e64_ok (by decide) (startL_pend true false false 0x500#32)
    rfl (archL_kept _) (archL_in _) tick
  refine ⟨n, s', h1, ?_, ?_, ?_⟩
  · rw [Bd.mem h2]; decide
  · rw [Bd.key h2]; rfl
  · rw [h3]; decide

/-- Not vacuous (C131): the interrupt key. -/
theorem C131_example (tick : Nat → Bool) : ∃ n s', run e64 tick n
    (startL 0x14b false false true 0x500#32) = .ok s' ∧
    ((s'.mem 6 = 0x01310040#32 ∧ s'.mem 7 = 0x00000100#32 ∧ s'.MASK = 0 ∧ s'.intr = false) ∨
     (s'.mem 20 = 0xffffff00#32 ∧ s'.intr = true)) := by
  obtain ⟨n, s', h1, h2⟩ := C131_external e64_ok (by decide) (startL_pend false false true 0x500#32)
    rfl (by decide : (1#8) &&& 1 ≠ 0) (archL_kept _) (archL_in _) (archL_new _ _ _) tick
  refine ⟨n, s', h1, ?_⟩
  rcases h2 with ⟨h2, -, h3⟩ | ⟨h2, -, h3⟩
  · refine .inl ⟨?_, ?_, ?_, h3⟩
    · rw [Bd.mem h2]; decide
    · rw [Bd.mem h2]; decide
    · rw [Bd.mask h2]; decide
  · refine .inr ⟨?_, h3⟩
    rw [Bd.mem h2]; decide

/-- What stays true in the loop. -/
structure Loop (a : Arch) : Prop where
  ia : a.ia = 0x100#32
  op : a.mem 0x40 = 0x47f00100#32
  n1 : a.mem 22 = 0#32
  n2 : a.mem 23 = 0x100#32

theorem Loop.inst {a : Arch} (h : Loop a) : a.inst = 0x47f0#16 ∧ a.half (a.ia.toNat + 2) = 0x0100#16 := by
  constructor
  · unfold Arch.inst Arch.half
    rw [h.ia, if_pos (by decide), show (0x100#32).toNat / 4 = 0x40 from rfl, h.op]; rfl
  · unfold Arch.half
    rw [h.ia, if_neg (by decide), show ((0x100#32).toNat + 2) / 4 = 0x40 from rfl, h.op]; rfl

theorem Loop.step {a : Arch} (h : Loop a) : stepI (4 * words e64) a = some a := by
  obtain ⟨h1, h2⟩ := h.inst
  have h3 : S360.step (4 * words e64) a = some a := by
    unfold S360.step
    rw [h1, h2, if_neg (by decide), if_pos (by decide)]
    show some (if selected _ a.cc then
      ({ a with ia := a.ia + 4 } : Arch).jump (ea a (dig2 0x47f0#16) (0x100#16 |>.extractLsb' 12 4)
        (0x100#16 |>.extractLsb' 0 12)) else { a with ia := a.ia + 4 }) = _
    have hs : ∀ c : BitVec 2, selected (dig1 0x47f0#16) c = true := by decide
    rw [if_pos (hs _)]
    show some ({ a with ia := _ } : Arch) = _
    have he : ea a (dig2 0x47f0#16) ((0x100#16).extractLsb' 12 4) ((0x100#16).extractLsb' 0 12) = 0x100#32 := by
      unfold ea
      rw [if_pos (by decide), if_pos (by decide)]; rfl
    rw [he, show 0x100#32 &&& 0xffffff#32 = a.ia by rw [h.ia]; rfl]
  unfold stepI
  rw [h3]

theorem Loop.fine {a : Arch} (h : Loop a) : Fine e64 a := by
  refine ⟨⟨?_, ?_⟩, ?_, ?_⟩
  · rw [h.ia]; decide
  · rw [h.ia]; decide
  · rintro ⟨h1, -⟩
    rw [h.inst.1] at h1
    exact absurd h1 (by decide)
  · rw [h.step]; rfl

theorem Loop.events : ∀ (l : List Event) {a b : Arch}, Loop a →
    S360.events (4 * words e64) l a = some b → Loop b
  | [], a, b, h, hb => by obtain rfl := Option.some.inj hb; exact h
  | v :: l, a, b, h, hb => by
    simp only [S360.events] at hb
    cases hv : v.apply (4 * words e64) a with
    | none => rw [hv] at hb; exact nomatch hb
    | some c =>
      rw [hv] at hb
      refine Loop.events l (?_ : Loop c) hb
      cases v with
      | instr =>
        rw [show Event.instr.apply (4 * words e64) a = stepI (4 * words e64) a from rfl, h.step] at hv
        obtain rfl := Option.some.inj hv; exact h
      | tick =>
        obtain rfl := Option.some.inj hv
        exact ⟨h.ia, h.op, h.n1, h.n2⟩
      | ext t ilc =>
        replace hv : (if a.mask &&& 1 = 0 then none else some (interrupt a 24 (extCode t) ilc)) =
          some c := hv
        split at hv
        · exact nomatch hv
        · obtain rfl := Option.some.inj hv
          refine ⟨?_, h.op, h.n1, h.n2⟩
          show a.mem 23 &&& 0xffffff#32 = _
          rw [h.n2]; rfl

/-- Not vacuous (C132): the loop, for any number of events and any ticks. -/
theorem C132_example (k : Nat) (v : W) (tu ti ik : Bool) (tick : Nat → Bool) :
    ∃ n s', run e64 tick n (startL 0x14a tu ti ik v) = .ok s' ∧
      ∃ l b, S360.events (4 * words e64) l (archL v) = some b ∧
      ((l.length = k ∧ (Ready e64 true b s' ∨ Pend e64 true b s')) ∨
       (l.length ≤ k ∧ Pend e64 true b s' ∧ extDue s' = false)) :=
  C132_interleaving e64_ok (by decide) k (startL_ready tu ti ik v) (archL_kept v)
    (fun l _ _ hb => (Loop.events l ⟨rfl, rfl, rfl, rfl⟩ hb).fine) tick

end Verif.Cpu50
