import Verif.Cpu50.Prog
import Verif.Cpu50.Prot

/-!
# Model 2050: properties C110-C115

The specification is `Isa.lean`; `run e tick n s` is `n` cycles of the processor, `tick i`
telling whether the interval timer ticks in cycle `i`.  `Ready e tk a s`: the processor is
between two instructions and its registers and storage are those of `a` (`Ready.visible`).
With `tk = false` nothing asks for an interruption and the timer does not tick.
-/

namespace Verif.Cpu50
open Verif.S360
attribute [local irreducible] ros

/-- C110. One instruction of the specification, whatever the timer does: the processor comes
to the end of the instruction with exactly the registers and storage the architecture
prescribes, and fetches the next instruction or takes an interruption there. -/
theorem C110_instruction {e : Env} {tk : Bool} {a a' : Arch} {s : S} (ho : EnvOk e)
    (h : Ready e tk a s) (hia : InStore e a) (hv : step (4 * words e) a = some a')
    (hz : ¬ Selfmod a) (hi : InStore e a') (tick : Nat → Bool)
    (ht : ∀ i, tick i = true → tk = true) :
    ∃ n s', run e tick n s = .ok s' ∧ (Ready e tk a' s' ∨ Pend e tk a' s') :=
  (step_exec ho h hia hv hz hi).run tick ht

/-- C110. Without requests for an interruption the next instruction follows. -/
theorem C110_instruction_quiet {e : Env} {a a' : Arch} {s : S} (ho : EnvOk e)
    (h : Ready e false a s) (hia : InStore e a) (hv : step (4 * words e) a = some a')
    (hz : ¬ Selfmod a) (hi : InStore e a') :
    ∃ n s', run e (fun _ => false) n s = .ok s' ∧ Ready e false a' s' := by
  obtain ⟨n, s', h1, h2⟩ := C110_instruction ho h hia hv hz hi (fun _ => false) (by simp)
  refine ⟨n, s', h1, ?_⟩
  rcases h2 with h2 | h2
  · exact h2
  · exact nomatch h2.may

/-- C111. Programs: `k` instructions of the specification are carried out one after the
other. -/
theorem C111_program {e : Env} {a b : Arch} {s : S} (ho : EnvOk e) (k : Nat)
    (h : Ready e false a s) (hb : steps (4 * words e) k a = some b)
    (hin : ∀ j c, j ≤ k → steps (4 * words e) j a = some c → InStore e c)
    (hz : ∀ j c, j < k → steps (4 * words e) j a = some c → ¬ Selfmod c) :
    ∃ n s', run e (fun _ => false) n s = .ok s' ∧ Ready e false b s' ∧
      { archOf s' with ia := b.ia } = b := by
  have hsome : ∀ (k : Nat) (a b : Arch), steps (4 * words e) k a = some b →
      ∀ j, j ≤ k → ∃ c, steps (4 * words e) j a = some c := by
    intro k
    induction k with
    | zero =>
      intro a b _ j hj
      obtain rfl : j = 0 := by omega
      exact ⟨a, rfl⟩
    | succ k ih =>
      intro a b hb j hj
      cases j with
      | zero => exact ⟨a, rfl⟩
      | succ j =>
        simp only [steps] at hb ⊢
        cases hs : step (4 * words e) a with
        | none => rw [hs] at hb; exact nomatch hb
        | some c => rw [hs] at hb; exact ih c b hb j (by omega)
  have h1 := prog_exec ho k (.inl h) (fun j hj => by
    obtain ⟨c, hc⟩ := hsome k a b hb j hj
    exact ⟨c, hc, hin j c hj hc⟩) (fun j c hj hc => hz j c hj hc)
  obtain ⟨n, s', h2, j, c, hj, hc, h3⟩ := h1.run (fun _ => false) (by simp)
  rcases h3 with ⟨h4, h5⟩ | h5
  · subst h4
    rw [hb] at hc
    obtain rfl := Option.some.inj hc
    exact ⟨n, s', h2, h5, h5.visible⟩
  · exact nomatch h5.may

/-- C112. Interruptions are precise: whenever the timer ticks while `k` instructions are to be
carried out, either all of them are, or an interruption is taken between two of them, with
exactly the first `j` carried out and the address of the next one as the instruction address. -/
theorem C112_precise {e : Env} {a : Arch} {s : S} (ho : EnvOk e) (k : Nat)
    (h : Ready e true a s)
    (hin : ∀ j, j ≤ k → ∃ c, steps (4 * words e) j a = some c ∧ InStore e c)
    (hz : ∀ j c, j < k → steps (4 * words e) j a = some c → ¬ Selfmod c) (tick : Nat → Bool) :
    ∃ n s', run e tick n s = .ok s' ∧ ∃ j b, j ≤ k ∧ steps (4 * words e) j a = some b ∧
      ((j = k ∧ Ready e true b s') ∨ Pend e true b s') :=
  (prog_exec ho k (.inl h) hin hz).run tick (by simp)

/-- Requests under mask give no reason for an interruption. -/
theorem exc_masked {s : S} (h : exc s = false) (i t : Bool) (b : B)
    (hx : (i || t) = true → s.MASK &&& 1 = 0) (hb : b &&& s.MASK = 0) :
    exc { s with BCHI := b, intr := i, timIrq := t } = false := by
  simp only [exc, Bool.or_eq_false_iff, Bool.and_eq_false_iff] at h ⊢
  refine ⟨h.1, ?_⟩
  rcases h.2 with h2 | ⟨⟨h2, _⟩, _⟩
  · exact .inl h2
  · refine .inr ⟨⟨h2, ?_⟩, by rw [hb]; rfl⟩
    cases hi : i <;> cases ht : t <;> simp [hi, ht] at hx ⊢ <;> exact hx

/-- C112. Requests under mask do not disturb a program: whatever external, timer and channel
requests which the system mask forbids are pending, the instruction is carried out and the
processor is ready for the next. -/
theorem C112_masked_requests_wait {e : Env} {a a' : Arch} {s : S} (ho : EnvOk e)
    (h : Ready e false a s) (hia : InStore e a) (hv : step (4 * words e) a = some a')
    (hz : ¬ Selfmod a) (hi : InStore e a') (i t : Bool) (b : B)
    (hx : (i || t) = true → s.MASK &&& 1 = 0) (hb : b &&& s.MASK = 0) :
    ∃ n s', run e (fun _ => false) n { s with BCHI := b, intr := i, timIrq := t } = .ok s' ∧
      Ready e false a' s' := by
  have h' : Ready e false a { s with BCHI := b, intr := i, timIrq := t } := by
    have hk : ∀ {s : S}, Asks e false s → ((i || t) = true → s.MASK &&& 1 = 0) →
        b &&& s.MASK = 0 → Asks e false { s with BCHI := b, intr := i, timIrq := t } :=
      fun q hx hb => ⟨q.im, q.ib, q.ms, q.rg, q.st, fun _ => exc_masked (q.qt rfl) i t b hx hb⟩
    cases h with
    | odd ask f roar arch ia l syl sar => exact .odd (hk ask hx hb) f roar arch ia l syl sar
    | even ask f roar arch ia sar => exact .even (hk ask hx hb) f roar arch ia sar
    | again ask f roar arch ia sar => exact .again (hk ask hx hb) f roar arch ia sar
    | branch ask f roar arch ia sar ud s3 =>
      exact .branch (hk ask hx hb) f roar arch ia sar ud s3
  exact C110_instruction_quiet ho h' hia hv hz hi

/-- C112. A request which is not masked is seen, unless the processor is being stopped. -/
theorem C112_unmasked_request_seen {s : S} (hs : s.stop = false)
    (h : s.BCHI &&& s.MASK ≠ 0 ∨ ((s.intr || s.timIrq) = true ∧ s.MASK &&& 1 ≠ 0)) :
    exc s = true := by
  rcases h with h | ⟨h, h'⟩
  · simp only [exc, hs, bne_iff_ne.mpr h]; simp
  · simp only [exc, hs, h, bne_iff_ne.mpr h']; simp

/-- C113. In general an instruction which overwrites the next one is not followed by the new
one: whenever ST replaces the word holding the next instruction in its right half, and an RR
instruction was there before, that one is executed, with the registers and storage after the
store. -/
theorem C113_violated_stale_instruction {e : Env} {a a' b : Arch} {s : S} (ho : EnvOk e)
    (h : Ready e false a s) (hia : InStore e a) (hv : step (4 * words e) a = some a')
    (hz : Selfmod a) (hi : InStore e a') (hop : (opOf (a.half a'.ia.toNat)).toNat < 0x40)
    (hb : rr { a' with ia := a'.ia + 2 } (opOf (a.half a'.ia.toNat))
      (dig1 (a.half a'.ia.toNat)) (dig2 (a.half a'.ia.toNat)) = some b)
    (hib : InStore e b) :
    ∃ n s', run e (fun _ => false) n s = .ok s' ∧ Ready e false b s' := by
  obtain ⟨n, s', h1, h2⟩ := (selfmod_exec ho h hia hv hz hi _ rfl hop hb hib).run
    (fun _ => false) (by simp)
  refine ⟨n, s', h1, ?_⟩
  rcases h2 with h2 | h2
  · exact h2
  · exact nomatch h2.may

/-- C113. Instructions stored anywhere else, or by STH and STC anywhere, are executed as
stored: the instruction of `a'` is the one read from its storage, and `Selfmod` only holds
for ST at an odd halfword storing into the word which follows it. -/
theorem C113_stored_instruction_partial {e : Env} {a a' b : Arch} {s : S} (ho : EnvOk e)
    (h : Ready e false a s) (hia : InStore e a) (hv : step (4 * words e) a = some a')
    (hb : step (4 * words e) a' = some b)
    (hop : (opOf a.inst).toNat ≠ 0x50 ∨ a.ia.toNat % 4 = 0)
    (hop' : (opOf a'.inst).toNat ≠ 0x50 ∨ a'.ia.toNat % 4 = 0)
    (hi : InStore e a') (hib : InStore e b) :
    ∃ n s', run e (fun _ => false) n s = .ok s' ∧ Ready e false b s' := by
  have hns : ∀ c : Arch, InStore e c → ((opOf c.inst).toNat ≠ 0x50 ∨ c.ia.toNat % 4 = 0) →
      ¬ Selfmod c := by
    rintro c hc h1 ⟨h2, h3, -⟩
    rcases h1 with h1 | h1
    · exact h1 h2
    · have h4 : (c.ia + 4).toNat % 4 = 2 := h3
      have := ho.lim
      have := hc.rg
      have h5 : (c.ia + 4).toNat = c.ia.toNat + 4 := by
        rw [BitVec.toNat_add]
        show (c.ia.toNat + 4) % 2 ^ 32 = _
        omega
      omega
  have h2 : steps (4 * words e) 2 a = some b := by simp [steps, hv, hb]
  have hin : ∀ j c, j ≤ 2 → steps (4 * words e) j a = some c → InStore e c := by
    intro j c hj hc
    match j, hj with
    | 0, _ => obtain rfl := Option.some.inj hc; exact hia
    | 1, _ =>
      simp only [steps, hv, Option.bind_some] at hc
      obtain rfl := Option.some.inj hc; exact hi
    | 2, _ => rw [h2] at hc; obtain rfl := Option.some.inj hc; exact hib
  obtain ⟨n, s', h3, h4, -⟩ := C111_program ho 2 h h2 hin (by
    intro j c hj hc
    match j, hj with
    | 0, _ => obtain rfl := Option.some.inj hc; exact hns _ hia hop
    | 1, _ =>
      simp only [steps, hv, Option.bind_some] at hc
      obtain rfl := Option.some.inj hc; exact hns _ hi hop')
  exact ⟨n, s', h3, h4⟩

/-- C114. Storage protection: a store into a block whose storage key is not the protection
key (and the protection key is not zero) leaves all storage, keys and registers as they were
and enters the program interruption for protection, whatever the timer does. -/
theorem C114_protected {e : Env} {tk : Bool} {a : Arch} {s : S} {n : Nat} {x : W} (ho : EnvOk e)
    (h : Ready e tk a s) (hia : InStore e a) (hop : storeLen (opOf a.inst) = some n)
    (hx : x = ea a (indexOf a.inst) ((a.half (a.ia.toNat + 2)).extractLsb' 12 4)
      ((a.half (a.ia.toNat + 2)).extractLsb' 0 12))
    (hw : Arch.within (4 * words e) n x) (hk : a.key ≠ 0)
    (hb : a.keys (x.toNat / 2048) ≠ a.key.setWidth 8) (tick : Nat → Bool)
    (ht : ∀ i, tick i = true → tk = true) :
    ∃ m s', run e tick m s = .ok s' ∧ s'.ROAR = 0x142 ∧
      archOf s' = { a with ia := a.ia + 4 } := by
  obtain ⟨m, s', h1, h2⟩ := (refused_exec ho h hia hop hx hw
    (by simpa [Arch.permits, hb] using hk)).run tick ht
  exact ⟨m, s', h1, h2.roar, h2.arch⟩

/-- The storage part of the three cycles in which a requested word is fetched, for the words
`w0 w1 w2` of the microprogram. -/
def threeQuarters (e : Env) (w0 w1 w2 : Word) (s : S) : Out S :=
  (memCycle e w0 s).bind fun r0 => (memCycle e w1 r0.2).bind fun r1 =>
    (memCycle e w2 r1.2).bind fun r2 => .ok r2.2

theorem quarters_sdr {e : Env} {tk : Bool} {s : S} (h : Asks e tk s)
    (hr : s.SAR.toNat % 0x40000 / 4 < words e) (w0 w1 w2 : Word) :
    ∃ s', threeQuarters e w0 w1 w2 s = .ok s' ∧
      s'.SDR = s.mem (s.SAR.toNat % 0x40000 / 4) := by
  have h0 := mem_acc h w0 false
  have ht : tickStep false s = s := by simp [tickStep]
  rw [ht] at h0
  have hix : memIx (acc false s).SA = s.SAR.toNat % 0x40000 / 4 := memIx_and s.SAR
  refine ⟨{ acc false s with SDR := s.mem (s.SAR.toNat % 0x40000 / 4), ms := .r3 }, ?_, rfl⟩
  have e1 : memCycle e w1 (acc false s) = .ok (interlocked w1.tr || usesStore w1,
      { acc false s with ms := .r2 }) := by
    simp [memCycle, acc]
  have e2 : memCycle e w2 { acc false s with ms := .r2 } = .ok (interlocked w2.tr || usesStore w2,
      { acc false s with SDR := s.mem (s.SAR.toNat % 0x40000 / 4), ms := .r3 }) := by
    have h5 : memRead e { acc false s with ms := .r3 } = .ok (s.mem (s.SAR.toNat % 0x40000 / 4)) := by
      unfold memRead
      show (if memIx (acc false s).SA < words e then Out.ok (s.mem (memIx (acc false s).SA))
        else Out.oob) = _
      rw [hix, if_pos hr]
    have h6 : fetch e { acc false s with ms := .r3 } =
        .ok { acc false s with SDR := s.mem (s.SAR.toNat % 0x40000 / 4), ms := .r3 } := by
      unfold fetch
      rw [h5]; rfl
    show ((if (!false || w2.tr == 29) then fetch e { acc false s with ms := .r3 }
      else _).bind _ : Out Held) = _
    rw [Bool.not_false, Bool.true_or, if_pos rfl, h6]
    simp [Out.bind, acc]
  unfold threeQuarters
  rw [h0]
  simp only [Out.bind, e1, e2]

/-- C115. Up to 256K every address in storage gives its own word. -/
theorem C115_own_word_partial {e : Env} {tk : Bool} {s : S} (ho : EnvOk e) (h : Asks e tk s)
    (w0 w1 w2 : Word) :
    ∃ s', threeQuarters e w0 w1 w2 s = .ok s' ∧ s'.SDR = s.mem (s.SAR.toNat / 4) := by
  have h1 := h.rg
  have h2 := ho.top
  have h3 := ho.lim
  have h4 : s.SAR.toNat % 0x40000 = s.SAR.toNat := Nat.mod_eq_of_lt (by omega)
  have := quarters_sdr h (by rw [h4]; omega) w0 w1 w2
  rw [h4] at this
  exact this

/-- C115 is violated on the model with 512K: every address in the upper half gives the word
256K below it. -/
theorem C115_violated_512K {e : Env} {tk : Bool} {s : S} (hm : e.memMax = 0x7ffff)
    (h : Asks e tk s) (hx : 0x40000 ≤ s.SAR.toNat) (w0 w1 w2 : Word) :
    ∃ s', threeQuarters e w0 w1 w2 s = .ok s' ∧ s'.SDR = s.mem ((s.SAR.toNat - 0x40000) / 4) := by
  have h1 := h.rg
  rw [hm] at h1
  replace h1 : s.SAR.toNat ≤ 0x7ffff := h1
  have h4 : s.SAR.toNat % 0x40000 = s.SAR.toNat - 0x40000 := by omega
  have := quarters_sdr h (by
    unfold words
    rw [hm, h4]
    show _ < (0x7ffff + 1) / 4
    omega) w0 w1 w2
  rw [h4] at this
  exact this

/-- Not vacuous (C115). -/
example : Asks { ros := Cpu50.ros, memMax := 0x7ffff } false
    { initMem := true, ms := .w1, SAR := 0x40010 } :=
  ⟨rfl, rfl, rfl, by decide, (fun h => nomatch h), fun _ => by simp [exc]⟩

example : Asks { ros := Cpu50.ros, memMax := 0xffff } false
    { initMem := true, ms := .w1, SAR := 0x10 } :=
  ⟨rfl, rfl, rfl, by decide, (fun h => nomatch h), fun _ => by simp [exc]⟩

/-! ### Concrete cases -/

/-- 64K of storage and the microprogram. -/
def e64 : Env := { ros := Cpu50.ros, memMax := 0xffff }

theorem e64_ok : EnvOk e64 := ⟨rfl, by decide, by decide⟩

/-- The fetch of the instruction at 100 (hexadecimal) begins; `m` is the storage. -/
def start (m : Nat → W) (key : BitVec 4) (mp : Nat → B) : S :=
  { initMem := true, ms := .w1, ROAR := 0x14a, SAR := 0x100, IA := 0x100, mem := m, KEY := key,
    MP := mp }

/-- Its architecture state: all registers zero. -/
def arch0 (m : Nat → W) (key : BitVec 4) (mp : Nat → B) : Arch :=
  { gr := fun _ => 0, fr := fun _ => 0, cc := 0, pm := 0, ia := 0x100, mem := m, keys := mp,
    key := key, amwp := 0, mask := 0, sys := 0 }

theorem start_ready (tk : Bool) (m : Nat → W) (key : BitVec 4) (mp : Nat → B) :
    Ready e64 tk (arch0 m key mp) (start m key mp) := by
  refine .even ⟨rfl, rfl, rfl, ?_, (fun h => nomatch h), fun _ => by simp [exc, start]⟩ ?_ (.inl rfl) rfl ?_ ?_
  · show (0x100#32).toNat ≤ _
    decide
  · show (0#8).toNat < 16
    decide
  · show (0x100#32).toNat % 4 = 0
    decide
  · show (0x100#32).toNat / 4 = (0x100#32).toNat / 4
    rfl

/-- The sum of the numbers from 10 down to 1: `LA 1,10`, `AR 2,1`, `BCT 1,104`,
`ST 2,200` (at 10a, an odd halfword), `LR 3,2`. -/
def sum10 : Nat → W
  | 0x40 => 0x4110000a
  | 0x41 => 0x1a214610
  | 0x42 => 0x01045020
  | 0x43 => 0x02001832
  | _ => 0

/-- A run of the specification in which each instruction meets the hypotheses. -/
def okRun (lim : Nat) : Nat → Arch → Bool
  | 0, a => a.ia.toNat % 2 == 0 && decide (a.ia.toNat + 8 ≤ lim)
  | k + 1, a => a.ia.toNat % 2 == 0 && decide (a.ia.toNat + 8 ≤ lim) &&
      !(decide ((opOf a.inst).toNat = 0x50) && decide ((a.ia + 4).toNat % 4 = 2) &&
        decide ((ea a (dig2 a.inst) ((a.half (a.ia.toNat + 2)).extractLsb' 12 4)
          ((a.half (a.ia.toNat + 2)).extractLsb' 0 12)).toNat / 4 = (a.ia + 4).toNat / 4)) &&
      (match step lim a with
       | none => false
       | some b => okRun lim k b)

theorem okRun_spec {e : Env} : ∀ (k : Nat) (a : Arch), okRun (4 * words e) k a = true →
    (∀ j, j ≤ k → ∃ c, steps (4 * words e) j a = some c ∧ InStore e c) ∧
    (∀ j c, j < k → steps (4 * words e) j a = some c → ¬ Selfmod c)
  | 0, a, h => by
    simp only [okRun, Bool.and_eq_true, beq_iff_eq, decide_eq_true_eq] at h
    refine ⟨fun j hj => ?_, fun j c hj => absurd hj (by omega)⟩
    obtain rfl : j = 0 := by omega
    exact ⟨a, rfl, ⟨h.1, h.2⟩⟩
  | k + 1, a, h => by
    simp only [okRun, Bool.and_eq_true, beq_iff_eq, decide_eq_true_eq] at h
    obtain ⟨⟨⟨h1, h2⟩, h3⟩, h4⟩ := h
    cases hs : step (4 * words e) a with
    | none => rw [hs] at h4; exact nomatch h4
    | some b =>
      rw [hs] at h4
      obtain ⟨h5, h6⟩ := okRun_spec k b h4
      have hj : ∀ j, steps (4 * words e) (j + 1) a = steps (4 * words e) j b := by
        intro j; simp only [steps, hs, Option.bind_some]
      refine ⟨fun j hj' => ?_, fun j c hj' hc => ?_⟩
      · cases j with
        | zero => exact ⟨a, rfl, ⟨h1, h2⟩⟩
        | succ j => rw [hj]; exact h5 j (by omega)
      · cases j with
        | zero =>
          obtain rfl := Option.some.inj hc
          rintro ⟨h7, h8, h9⟩
          have h8' : (a.ia + 4).toNat % 4 = 2 := h8
          have h9' : (ea a (dig2 a.inst) ((a.half (a.ia.toNat + 2)).extractLsb' 12 4)
            ((a.half (a.ia.toNat + 2)).extractLsb' 0 12)).toNat / 4 = (a.ia + 4).toNat / 4 := h9
          rw [decide_eq_true h7, decide_eq_true h8', decide_eq_true h9'] at h3
          exact nomatch h3
        | succ j => rw [hj] at hc; exact h6 j c (by omega) hc

theorem sum10_ok : okRun (4 * words e64) 23 (arch0 sum10 0 (fun _ => 0)) = true := by
  decide +kernel

/-- Not vacuous (C110, C111): the 23 instructions of the program are executed and leave 55 in
registers 2 and 3 and in the word at 200. -/
theorem C111_example : ∃ n s', run e64 (fun _ => false) n (start sum10 0 fun _ => 0) = .ok s' ∧
    (archOf s').gr 2 = 55 ∧ (archOf s').gr 3 = 55 ∧ (archOf s').mem 0x80 = 55 := by
  obtain ⟨h1, h2⟩ := okRun_spec (e := e64) 23 _ sum10_ok
  obtain ⟨b, hb, -⟩ := h1 23 (Nat.le_refl _)
  obtain ⟨n, s', h3, -, h4⟩ := C111_program e64_ok 23 (start_ready false sum10 0 fun _ => 0) hb
    (fun j c hj hc => by
      obtain ⟨d, hd, hi⟩ := h1 j hj
      rw [hc] at hd; obtain rfl := Option.some.inj hd; exact hi) h2
  have h5 : (steps (4 * words e64) 23 (arch0 sum10 0 fun _ => 0)).map
      (fun b => (b.gr 2, b.gr 3, b.mem 0x80)) = some (55, 55, 55) := by decide +kernel
  rw [hb] at h5
  simp only [Option.map_some, Option.some.injEq, Prod.mk.injEq] at h5
  refine ⟨n, s', h3, ?_, ?_, ?_⟩
  · exact (congrArg (fun a => Arch.gr a 2) h4).trans h5.1
  · exact (congrArg (fun a => Arch.gr a 3) h4).trans h5.2.1
  · exact (congrArg (fun a => Arch.mem a 0x80) h4).trans h5.2.2

/-- Not vacuous (C112). -/
example (tick : Nat → Bool) : ∃ n s', run e64 tick n (start sum10 0 fun _ => 0) = .ok s' ∧
    ∃ j b, j ≤ 23 ∧ steps (4 * words e64) j (arch0 sum10 0 fun _ => 0) = some b ∧
      ((j = 23 ∧ Ready e64 true b s') ∨ Pend e64 true b s') :=
  C112_precise e64_ok 23 (start_ready true sum10 0 fun _ => 0) (okRun_spec 23 _ sum10_ok).1
    (okRun_spec 23 _ sum10_ok).2 tick

/-- `L 1,200`, `LA 3,7`, `LR 2,2`, at 10a `ST 1,10c`, which replaces `AR 2,3` at 10e by
`LR 2,2`. -/
def modify : Nat → W
  | 0x40 => 0x58100200
  | 0x41 => 0x41300007
  | 0x42 => 0x18225010
  | 0x43 => 0x010c1a23
  | 0x80 => 0x010c1822
  | _ => 0

/-- The architecture: after `L 1,200`, `LA 3,7`, `LR 2,2` and the store, `LR 2,2` is executed
and register 2 remains zero. -/
theorem modify_spec : (steps (4 * words e64) 5 (arch0 modify 0 fun _ => 0)).map
    (fun b => (b.gr 2, b.ia, b.mem 0x43)) = some (0, 0x110, 0x010c1822) := by decide +kernel

/-- The registers, address and word of interest after the three instructions before the
store, after the store, and after the old instruction. -/
def modifyObs : Option (Bool × BitVec 16 × Option (W × W × Bool)) :=
  (steps (4 * words e64) 3 (arch0 modify 0 fun _ => 0)).bind fun a =>
    (step (4 * words e64) a).map fun a' =>
      (decide ((opOf a.inst).toNat = 0x50) && decide ((a.ia + 4).toNat % 4 = 2) &&
        decide ((ea a (dig2 a.inst) ((a.half (a.ia.toNat + 2)).extractLsb' 12 4)
          ((a.half (a.ia.toNat + 2)).extractLsb' 0 12)).toNat / 4 = (a.ia + 4).toNat / 4) &&
        decide (a.ia = 0x10a) && decide (a'.ia = 0x10e), a.half a'.ia.toNat,
       (rr { a' with ia := a'.ia + 2 } 0x1a 2 3).map fun b =>
         (b.gr 2, b.ia, decide (b.mem 0x43 = 0x010c1822)))

theorem modifyObs_eq : modifyObs = some (true, 0x1a23, some (7, 0x110, true)) := by
  decide +kernel

theorem modify_ok : okRun (4 * words e64) 3 (arch0 modify 0 fun _ => 0) = true := by
  decide +kernel

/-- C113 is violated: the processor comes to the instruction at 110 with 7 in register 2,
where the architecture has 0 (`modify_spec`), although storage holds the new instruction. -/
theorem C113_violated_example : ∃ n s', run e64 (fun _ => false) n (start modify 0 fun _ => 0) = .ok s' ∧
    ∃ b, Ready e64 false b s' ∧ b.ia = 0x110 ∧ b.gr 2 = 7 ∧ (archOf s').gr 2 = 7 ∧
      (archOf s').mem 0x43 = 0x010c1822 := by
  obtain ⟨h1, h2⟩ := okRun_spec (e := e64) 3 _ modify_ok
  obtain ⟨a, ha, hia⟩ := h1 3 (Nat.le_refl _)
  have hobs := modifyObs_eq
  unfold modifyObs at hobs
  rw [ha, Option.bind_some] at hobs
  cases hs : step (4 * words e64) a with
  | none => rw [hs] at hobs; exact nomatch hobs
  | some a' =>
    rw [hs] at hobs
    simp only [Option.map_some, Option.some.injEq, Prod.mk.injEq, Bool.and_eq_true,
      decide_eq_true_eq] at hobs
    obtain ⟨⟨⟨⟨⟨g1, g2⟩, g3⟩, g4⟩, g5⟩, g6, g7⟩ := hobs
    cases hb : rr { a' with ia := a'.ia + 2 } 0x1a 2 3 with
    | none => rw [hb] at g7; exact nomatch g7
    | some b =>
      rw [hb] at g7
      simp only [Option.map_some, Option.some.injEq, Prod.mk.injEq, decide_eq_true_eq] at g7
      obtain ⟨g7, g8, g9⟩ := g7
      have hi' : InStore e64 a' := ⟨by rw [g5]; decide, by rw [g5]; decide⟩
      have hib : InStore e64 b := ⟨by rw [g8]; decide, by rw [g8]; decide⟩
      have hev := prog_exec (tk := false) e64_ok 3 (.inl (start_ready false modify 0 fun _ => 0)) h1 h2
      have hev2 : Ev e64 false (fun s' => Ready e64 false b s') (start modify 0 fun _ => 0) := by
        refine Ev.bind hev ?_
        rintro s1 ⟨j, c, hj, hc, h3⟩
        rcases h3 with ⟨h3, h4⟩ | h3
        · subst h3
          rw [ha] at hc
          obtain rfl := Option.some.inj hc
          refine Ev.bind (selfmod_exec e64_ok h4 hia hs ⟨g1, g2, g3⟩ hi' 0x1a23 g6.symm (by decide)
            hb hib) ?_
          intro s2 h5
          rcases h5 with h5 | h5
          · exact .now h5
          · exact nomatch h5.may
        · exact nomatch h3.may
      obtain ⟨n, s', h6, h7⟩ := hev2.run (fun _ => false) (by simp)
      refine ⟨n, s', h6, b, h7, g8, g7, ?_, ?_⟩
      · exact (congrArg (fun a => Arch.gr a 2) h7.visible).trans g7
      · exact (congrArg (fun a => Arch.mem a 0x43) h7.visible).trans g9

/-- `STC 1,105`, which changes `AR 2,3` at 104 to `AR 0,0`. -/
def modifyC : Nat → W
  | 0x40 => 0x42100105
  | 0x41 => 0x1a231822
  | _ => 0

/-- Not vacuous (C113, partial): the instruction just stored is executed. -/
example : ∃ n s', run e64 (fun _ => false) n (start modifyC 0 fun _ => 0) = .ok s' ∧
    ∃ b, Ready e64 false b s' ∧ b.ia = 0x106 := by
  have hobs : (step (4 * words e64) (arch0 modifyC 0 fun _ => 0)).bind (fun c =>
      (step (4 * words e64) c).map fun d => (c.inst, c.ia, d.ia)) =
      some (0x1a00, 0x104, 0x106) := by decide +kernel
  cases hs : step (4 * words e64) (arch0 modifyC 0 fun _ => 0) with
  | none => rw [hs] at hobs; exact nomatch hobs
  | some a' =>
    rw [hs, Option.bind_some] at hobs
    cases hb : step (4 * words e64) a' with
    | none => rw [hb] at hobs; exact nomatch hobs
    | some b =>
      rw [hb] at hobs
      simp only [Option.map_some, Option.some.injEq, Prod.mk.injEq] at hobs
      obtain ⟨h1, h2, h3⟩ := hobs
      obtain ⟨n, s', h4, h5⟩ := C113_stored_instruction_partial e64_ok
        (start_ready false modifyC 0 fun _ => 0) ⟨by decide, by decide⟩ hs hb (.inl (by decide))
        (.inl (by rw [h1]; decide)) ⟨by rw [h2]; decide, by rw [h2]; decide⟩
        ⟨by rw [h3]; decide, by rw [h3]; decide⟩
      exact ⟨n, s', h4, b, h5, h3⟩

/-- Not vacuous (C114): `ST 1,200` with protection key 3 and storage key 4. -/
example (tick : Nat → Bool) : ∃ m s', run e64 tick m
    (start (fun i => if i = 0x40 then 0x50100200 else 0) 3 fun _ => 4) = .ok s' ∧
    s'.ROAR = 0x142 ∧ archOf s' = { arch0 (fun i => if i = 0x40 then 0x50100200 else 0) 3
      (fun _ => 4) with ia := 0x100 + 4 } :=
  C114_protected (n := 4) e64_ok (start_ready true _ 3 fun _ => 4) ⟨by decide, by decide⟩
    (by decide) rfl (by decide) (by decide) (by decide) tick (by simp)

end Verif.Cpu50
