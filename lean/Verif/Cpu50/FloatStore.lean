import Verif.Cpu50.Words18
import Verif.Cpu50.FloatMem

/-!
# Model 2050: STE, the short floating-point store (C171)
-/

namespace Verif.Cpu50
open Verif.S360
attribute [local irreducible] ros

/-- One interlocked word, from the first quarter. -/
theorem Ev.mod4 {e : Env} {tk : Bool} {P : S → Prop} {s : S} (ho : EnvOk e)
    (hc : Calm e tk s) (hb : s.bump = false) (hm : s.ms = .r1) {n : Nat} (hr : s.ROAR = n)
    (hint : interlocked (Cpu50.ros n).tr = true)
    (h29 : ((Cpu50.ros n).tr == 29) = false) {f : Bool → Bool → S}
    (hx : ∀ tu ex, exec e (Cpu50.ros n) ex
      { s with timUp := tu, SDR := s.mem (memIx s.SA), ms := .w1 } = .ok (f tu ex))
    (k : ∀ tu ex, (tk = false → ex = false) →
      Calm e tk { s with timUp := tu, SDR := s.mem (memIx s.SA), ms := .w1 } →
      Ev e tk P (f tu ex)) : Ev e tk P s := by
  have hrg : memIx s.SA < words e := by simpa [hb] using hc.rg (.inl hm)
  have hwt : (interlocked (e.ros n).tr || usesStore (e.ros n)) = true := by
    rw [ho.ros, hint]; rfl
  refine .step (fun t => Cpu50.bg t s) (fun t _ => ?_) fun t ht => ?_
  · exact cycle_held e t s _ (mem_wait hc _ (by rw [hr]; exact hwt) (.inl hm) t)
  have hc1 := hc.bg t ht
  have hm1 : (Cpu50.bg t s).ms = .r2 := by show bgMs s.ms = _; rw [hm]; rfl
  generalize hs1 : Cpu50.bg t s = s1 at *
  have e1 : s1 = { s with timUp := s1.timUp, ms := .r2 } := by
    rw [← hs1]; simp [Cpu50.bg, hm, bgMs, bgSdr]
  refine .step (fun t => Cpu50.bg t s1) (fun t _ => ?_) fun t2 ht2 => ?_
  · refine cycle_held e t s1 _ (mem_wait hc1 _ ?_ (.inr hm1) t)
    rw [show s1.ROAR = n by rw [e1]; exact hr]; exact hwt
  have hc2 := hc1.bg t2 ht2
  generalize hs2 : Cpu50.bg t2 s1 = s2 at *
  have e2 : s2 = { s with timUp := s2.timUp, SDR := s.mem (memIx s.SA), ms := .r3 } := by
    rw [← hs2, e1]; simp [Cpu50.bg, bgMs, bgSdr, hb]
  have hmc : ∀ t, memCycle e (e.ros n) (tickStep t s2) = .ok (false,
      { s with timUp := s2.timUp || (t && !s.man), SDR := s.mem (memIx s.SA), ms := .w1 }) := by
    intro t
    rw [e2]
    have h3 : ((e.ros n).tr == 29) = false := by rw [ho.ros]; exact h29
    simp only [memCycle, tickStep, hc.im, hc.ib, hc.ud, h3]
    simp
  refine .step (fun t => f (s2.timUp || (t && !s.man)) (exc (tickStep t s2))) (fun t _ => ?_)
    fun t3 ht3 => ?_
  · have h1 := hmc t
    have hr2 : s2.ROAR = n := by rw [e2]; exact hr
    rw [cycle_run e t s2 _ (by rw [hr2]; exact h1), hr2, ho.ros]
    exact hx _ _
  · refine k _ _ (exc_tick hc2.qt ht3) ⟨hc.im, hc.ib, hc.ud, by simp, by simp, fun h => ?_⟩
    have := exc_tick hc2.qt ht3 h
    rw [← this, e2]; rfl

/-- The last microinstruction of a store, in the quarter in which it is written back. -/
theorem end_wn {e : Env} {tk : Bool} {a : Arch} {s : S} {n : Nat} (ho : EnvOk e)
    (im : s.initMem = false) (ib : s.initBump = false) (ud : s.updD = true) (ms : s.ms = .w1)
    (hb : s.bump = false) (rg : memIx s.SA < words e) (qt : tk = false → exc s = false)
    (arch : { archOf s with mem := memUpd s } = a) (f : s.F.toNat < 16)
    (odd : a.ia.toNat % 4 = 2 → s.REFETCH = false → s.LS 30 = s.mem (a.ia.toNat / 4) ∧
      s.SYLS1 = (s.LS 30 &&& 0xc000#32 == 0#32))
    (hi : InStore e a) (hr : s.ROAR = n) (hn : Cpu50.ros n = Cpu50.ros 0x197) : Ev e tk (Bd e tk a) s := by
  have hmc : ∀ w t, memCycle e w (tickStep t s) = .ok (false,
      { s with timUp := s.timUp || (t && !s.man), updD := false, mem := memUpd s,
               REFETCH := s.REFETCH || decide (s.SA >>> 2 = s.IA >>> 2),
               SA := s.SAR &&& 0x3ffff }) := by
    intro w t
    simp only [memCycle, tickStep, ms, writeBack, ud, hb, rg, Out.bind, accept, im, ib]
    rfl
  refine Ev.go (fun t => (cycle_run e t s _ (hmc _ t)).trans (Eq.trans
    (congrArg (fun w => exec e w _ _) (by rw [hr, ho.ros, hn])) (x197 e _ _))) fun t ht => .now ?_
  · refine end_c0 (s := { s with
        timUp := s.timUp || (t && !s.man), updD := false, mem := memUpd s,
        REFETCH := s.REFETCH || decide (s.SA >>> 2 = s.IA >>> 2), SA := s.SAR &&& 0x3ffff })
      ho hi (exc_tick qt ht) (fun h => ?_) ms arch ?_ ?_ rfl ib ?_ f rfl rfl rfl rfl
    · have := exc_tick qt ht h
      rw [← this]; rfl
    · rw [← arch]; rfl
    · intro h1 h2
      simp only [Bool.or_eq_false_iff, decide_eq_false_iff_not] at h2
      obtain ⟨h3, h4⟩ := odd h1 h2.1
      refine ⟨?_, h4⟩
      show s.LS 30 = _
      rw [h3, ← arch]
      show _ = memUpd s _
      have hia : s.IA = a.ia := by rw [← arch]; rfl
      unfold memUpd
      rw [if_neg]
      intro h5
      refine h2.2 (BitVec.eq_of_toNat_eq ?_)
      rw [show s.IA = a.ia by rw [← arch]; rfl]
      show memIx s.SA = _
      rw [← h5, BitVec.toNat_ushiftRight, Nat.shiftRight_eq_div_pow, ← arch]
    · intro h; cases h

/-- STE, after the address. -/
theorem ste_exec {e : Env} {tk : Bool} {a : Arch} {i : BitVec 16} {x : W} {s : S} (ho : EnvOk e)
    (h : OpM e tk a i x s) (hop : (opOf i).toNat = 0x70) (h1 : fpReg (dig1 i)) (hk : a.permits x)
    (hx : x.toNat + 4 ≤ 4 * words e) (hi : InStore e a) :
    Ev e tk (Bd e tk (a.store x.toNat (a.fr (dig1 i)))) s := by
  have hro := h.roar
  have hlo := h.lo
  have hlim := ho.lim
  rw [decide_eq_true h1] at hro
  rw [hop] at hlo
  have hkey : Permit s := permit_of h.arch (by rw [h.sar]) hk (by omega)
  refine Ev.acc (n := 0x9c7) ho h.ask hro (by rw [w9c7]; decide) (fun t => x9c7 e _ _) fun t ht hc => ?_
  have hsa : memIx (acc t s).SA = x.toNat / 4 := by
    show memIx (s.SAR &&& 0x3ffff) = _
    rw [memIx_and, h.sar, Nat.mod_eq_of_lt (by omega)]
  have hro2 : (768 ||| nib s.M 6 <<< 2 ||| 2) = 0x302 := by rw [hlo]; rfl
  refine Ev.mod4 (n := 0x302) ho (hc.congr (by unfold memPart; rfl)) rfl rfl hro2 (by rw [w302]; decide) (by rw [w302]; decide)
    (fun tu ex => x302_k e _ _ (hkey.congr rfl rfl rfl)) fun tu ex hex hc2 => ?_
  have hro3 : (844 ||| 2 * s.St.s3.toNat + (!s.St.s3).toNat) = 0x34e := by rw [h.s3]; rfl
  refine end_wn (n := 0x34e) ho hc2.im hc2.ib rfl rfl rfl ?_ (fun h1 => ?_) ?_ h.f ?_ (hi.same rfl) hro3 (by rw [w34e, w197])
  · show memIx (acc t s).SA < _
    rw [hsa]; omega
  · rw [← hc2.qt h1]; rfl
  · have hv : s.LS (2#2 ++ s.MD) = a.fr (dig1 i) := by rw [h.md]; exact fr_of h.arch
    show ({ archOf s with
      mem := fun i => if i = memIx (acc t s).SA then s.LS (2#2 ++ s.MD) else s.mem i } : Arch) = _
    rw [hv, hsa, ← h.arch]
    simp only [archOf, Arch.store]
  · intro h4 h5
    have h6 := h.odd h4 (by simp only [acc, h.ud, Bool.false_and, Bool.or_false] at h5; exact h5)
    rw [show a.mem = s.mem by rw [← h.arch]; rfl] at h6
    exact h6

/-- C171: `STE` stores the first word of the floating-point register at the address of the operand, if the storage key
allows it, also over the next instruction. -/
theorem C171_store_short {e : Env} {tk : Bool} {a : Arch} {s : S} (ho : EnvOk e)
    (h : Ready e tk a s) (hia : InStore e a) (hop : (opOf a.inst).toNat = 0x70)
    (h1 : fpReg (dig1 a.inst)) (hr : Arch.within (4 * words e) 4 a.operand) (hk : a.permits a.operand)
    (hi : InStore e a.next) (tick : Nat → Bool) (ht : ∀ i, tick i = true → tk = true) :
    ∃ n s', run e tick n s = .ok s' ∧
      (Ready e tk (a.next.store a.operand.toNat (a.fr (dig1 a.inst))) s' ∨
       Pend e tk (a.next.store a.operand.toNat (a.fr (dig1 a.inst))) s') := by
  refine Ev.run ?_ tick ht
  rw [next4 (by omega) (by omega)] at hi ⊢
  rw [operand_rx (by omega)] at hr hk ⊢
  have hx := hr
  simp only [Arch.within, Bool.and_eq_true, beq_iff_eq, decide_eq_true_eq] at hx
  exact Ev.bind (fetch_rx ho h (by omega) (by omega) hia.rg) fun s1 f1 =>
    Ev.bind (to_opm ho f1 (by omega) hr) fun s2 f2 => ste_exec ho f2 hop h1 hk hx.2 hi

/-- C171: `STE` of another register stores nothing; a program interruption with the code 6 follows. -/
theorem C171_specification {e : Env} {tk : Bool} {a b : Arch} {s : S} (ho : EnvOk e)
    (h : Ready e tk a s) (hia : InStore e a) (hk : a.Kept) (hm : 112 ≤ 4 * words e)
    (hop : (opOf a.inst).toNat = 0x70)
    (h1 : ¬ fpReg (dig1 a.inst)) (hr : Arch.within (4 * words e) 4 a.operand)
    (hb : b = interrupt a.next 0x28 6 2) (hw : tk = false → Quiet a b) (hi : InStore e b)
    (tick : Nat → Bool) (ht : ∀ i, tick i = true → tk = true) :
    ∃ n s', run e tick n s = .ok s' ∧ (Ready e tk b s' ∨ Pend e tk b s') := by
  refine Ev.run ?_ tick ht
  rw [next4 (by omega) (by omega)] at hb
  rw [operand_rx (by omega)] at hr
  refine Ev.bind (fetch_rx ho h (by omega) (by omega) hia.rg) fun s1 f1 =>
    Ev.bind (to_opm ho f1 (by omega) hr) fun s2 f2 => ?_
  have hro := f2.roar
  rw [decide_eq_false h1] at hro
  exact pgm_acc (n := 0x9c5) ho begins_9c5 f2.ask f2.arch f2.il hro hk hm hb hw hi

/-- C171: `STE` which the storage key does not permit stores nothing; a program interruption with the code 4 follows. -/
theorem C171_protection {e : Env} {tk : Bool} {a b : Arch} {s : S} (ho : EnvOk e)
    (h : Ready e tk a s) (hia : InStore e a) (hk : a.Kept) (hm : 112 ≤ 4 * words e)
    (hop : (opOf a.inst).toNat = 0x70) (h1 : fpReg (dig1 a.inst))
    (hr : Arch.within (4 * words e) 4 a.operand) (hp : a.permits a.operand = false)
    (hb : b = interrupt a.next 0x28 4 2) (hw : tk = false → Quiet a b) (hi : InStore e b)
    (tick : Nat → Bool) (ht : ∀ i, tick i = true → tk = true) :
    ∃ n s', run e tick n s = .ok s' ∧ (Ready e tk b s' ∨ Pend e tk b s') := by
  refine Ev.run ?_ tick ht
  rw [next4 (by omega) (by omega)] at hb
  rw [operand_rx (by omega)] at hr hp
  have hx := hr
  simp only [Arch.within, Bool.and_eq_true, beq_iff_eq, decide_eq_true_eq] at hx
  refine Ev.bind (fetch_rx ho h (by omega) (by omega) hia.rg) fun s1 f1 =>
    Ev.bind (to_opm ho f1 (by omega) hr) fun s2 f2 => ?_
  have hro := f2.roar
  have hlo := f2.lo
  have hlim := ho.lim
  rw [decide_eq_true h1] at hro
  rw [hop] at hlo
  have hkey : Denied s2 := denied_of f2.arch f2.sar hp (by
    have h3 := hx.2
    refine Nat.lt_of_lt_of_le (Nat.lt_of_lt_of_le (Nat.lt_add_of_pos_right (by decide)) h3) (by omega))
  refine Ev.acc (n := 0x9c7) ho f2.ask hro (by rw [w9c7]; decide) (fun t => x9c7 e _ _) fun t ht hc => ?_
  have hro2 : (768 ||| nib s2.M 6 <<< 2 ||| 2) = 0x302 := by rw [hlo]; rfl
  refine Ev.mod4 (n := 0x302) ho (hc.congr (by unfold memPart; rfl)) rfl rfl hro2 (by rw [w302]; decide) (by rw [w302]; decide)
    (fun tu ex => x302_p e _ _ (hkey.congr rfl rfl rfl)) fun tu ex hex hc2 => ?_
  exact pgm_exec (n := 0x142) ho begins4 ⟨hc2.congr (by unfold memPart; rfl), f2.arch⟩ f2.il rfl hk hm hb hw hi

/-- `STE 4,104`: over the next instruction. -/
example (tick : Nat → Bool) : ∃ n s', run e64 tick n (startFloat 0x70400104 0x41100000 7) = .ok s' ∧
    ∃ b : Arch, (b.mem 65 = 0x41100000 ∧ b.mem 64 = 0x70400104 ∧ b.fr 4 = 0x41100000 ∧ b.ia = 0x104) ∧
      (Ready e64 true b s' ∨ Pend e64 true b s') := by
  obtain ⟨n, s', h1, h2⟩ := C171_store_short e64_ok (ready_float 0x70400104 0x41100000 7) ⟨by decide, by decide⟩
    (by decide) (by decide) (by decide) (by decide) ⟨by decide, by decide⟩ tick (by simp)
  exact ⟨n, s', h1, _, by decide, h2⟩

/-- `STE 5,104`. -/
example (tick : Nat → Bool) : ∃ n s', run e64 tick n (startFloat 0x70500104 0x41100000 7) = .ok s' ∧
    ∃ b : Arch, (b.mem 65 = 0 ∧ b.mem 10 = 6 ∧ b.mem 11 = 0x80000104 ∧ b.ia = 0x200) ∧
      (Ready e64 true b s' ∨ Pend e64 true b s') := by
  obtain ⟨n, s', h1, h2⟩ := C171_specification e64_ok (ready_float 0x70500104 0x41100000 7) ⟨by decide, by decide⟩
    (by unfold Arch.Kept; decide) (by decide) (by decide) (by decide) (by decide) rfl (fun h => nomatch h)
    ⟨by decide, by decide⟩ tick (by simp)
  exact ⟨n, s', h1, _, by decide, h2⟩

theorem arch23 (s : S) (v : W) : archOf { s with LS := lsPut s.LS 23#6 v } = { archOf s with sys := v } := by
  have h1 : (fun i : BitVec 4 => lsPut s.LS 23#6 v (3#2 ++ i)) = fun i => s.LS (3#2 ++ i) := by
    funext i
    have h : ¬ (3#2 ++ i : BitVec 6) = 23#6 := by revert i; decide
    simp only [lsPut]; exact if_neg h
  have h2 : (fun i : BitVec 4 => lsPut s.LS 23#6 v (2#2 ++ i)) = fun i => s.LS (2#2 ++ i) := by
    funext i
    have h : ¬ (2#2 ++ i : BitVec 6) = 23#6 := by revert i; decide
    simp only [lsPut]; exact if_neg h
  have h3 : lsPut s.LS 23#6 v 23#6 = v := rfl
  simp only [archOf, h1, h2, h3]

/-- The processor of `startFloat` with the protection key 1; the key of all storage is 0. -/
def startKey (w x y : W) : S :=
  { startFloat w x y with KEY := 1, MP := fun _ => 0, LS := lsPut (startFloat w x y).LS 23#6 0x00100000#32 }

theorem ready_key (w x y : W) : Ready e64 true { archFloat w x y with key := 1, keys := fun _ => 0, sys := 0x00100000#32 }
    (startKey w x y) := by
  have h := ready_float w x y
  refine .even ⟨rfl, rfl, rfl, ?_, (fun h => nomatch h), fun h => nomatch h⟩ ?_ (.inl rfl) ?_ ?_ ?_
  · show (0x100#32).toNat ≤ _
    decide
  · show (0#8).toNat < 16
    decide
  · have h1 : archOf (startFloat w x y) = archFloat w x y := by
      cases h with
      | even _ _ _ h1 => exact h1
      | odd _ _ _ h1 => exact h1
      | again _ _ _ h1 => exact h1
      | branch _ _ h2 => exact absurd (show (0x14a : Nat) = 0x102 from h2) (by decide)
    have h2 := arch23 (startFloat w x y) 0x00100000#32
    rw [h1] at h2
    exact congrArg (fun a : Arch => { a with key := 1, keys := fun _ => 0 }) h2
  · show (0x100#32).toNat % 4 = 0
    decide
  · show (0x100#32).toNat / 4 = (0x100#32).toNat / 4
    rfl

/-- `STE 4,104` with the key 1 and storage of the key 0. -/
example (tick : Nat → Bool) : ∃ n s', run e64 tick n (startKey 0x70400104 0x41100000 7) = .ok s' ∧
    ∃ b : Arch, (b.mem 65 = 0 ∧ b.mem 10 = 0x00100004 ∧ b.mem 11 = 0x80000104 ∧ b.ia = 0x200) ∧
      (Ready e64 true b s' ∨ Pend e64 true b s') := by
  obtain ⟨n, s', h1, h2⟩ := C171_protection e64_ok (ready_key 0x70400104 0x41100000 7) ⟨by decide, by decide⟩
    (by unfold Arch.Kept; decide) (by decide) (by decide) (by decide) (by decide) (by decide) rfl (fun h => nomatch h)
    ⟨by decide, by decide⟩ tick (by simp)
  exact ⟨n, s', h1, _, by decide, h2⟩

end Verif.Cpu50
