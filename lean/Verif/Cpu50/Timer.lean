import Verif.Cpu50.Irq2
import Verif.Cpu50.Words7

/-!
# Model 2050: the interval timer and external interruptions

From an exceptional condition found at the end of an instruction (words 14b, 147 and 103) to the
next fetch.
-/

namespace Verif.Cpu50
open Verif.S360
attribute [local irreducible] ros

/-- One word which waits for the storage data register or for the end of the storage cycle;
the timer's request stays. -/
theorem Ev.waitM {e : Env} {tk : Bool} {P : S → Prop} {s : S} (ho : EnvOk e)
    (hc : Calm e tk s) {n : Nat} (hr : s.ROAR = n)
    (hw : (interlocked (Cpu50.ros n).tr || usesStore (Cpu50.ros n)) = true)
    (h29 : ((Cpu50.ros n).tr == 29) = false) {f : Bool → W → Bool → S}
    (hx : ∀ tu sa ex, exec e (Cpu50.ros n) ex
      { s with timUp := tu, SDR := sdrAt s, SA := sa, ms := .w1 } = .ok (f tu sa ex))
    (k : ∀ tu sa ex, (s.timUp = true → tu = true) → (tk = false → ex = false) →
      Calm e tk { s with timUp := tu, SDR := sdrAt s, SA := sa, ms := .w1 } →
      Ev e tk P (f tu sa ex)) : Ev e tk P s := by
  -- the last cycle
  have last : ∀ s1 : S, Calm e tk s1 → s1.ms = .r3 ∨ s1.ms = .w1 →
      (∃ tu sdr sa ms, s1 = { s with timUp := tu, SDR := sdr, SA := sa, ms := ms } ∧
        (s.timUp = true → tu = true)) →
      sdrAt s1 = sdrAt s → Ev e tk P s1 := by
    rintro s1 hc1 hm ⟨tu, sdr, sa, ms, h1, hu⟩ h2
    have hr1 : s1.ROAR = n := by rw [h1]; exact hr
    have hb : ∀ t, Cpu50.bg t s1 = { s with timUp := (Cpu50.bg t s1).timUp, SDR := sdrAt s,
                                            SA := (Cpu50.bg t s1).SA, ms := .w1 } := by
      intro t
      have h3 : sdrAt s1 = s1.SDR := by rcases hm with hm | hm <;> simp [sdrAt, hm]
      have h4 : bgMs s1.ms = .w1 := by rcases hm with hm | hm <;> rw [hm] <;> rfl
      have h5 : bgSdr s1 = s1.SDR := by rcases hm with hm | hm <;> simp [bgSdr, hm]
      rw [h3] at h2
      simp only [Cpu50.bg, h4, h5, h2]
      rw [h1]
    refine .step (fun t => f (Cpu50.bg t s1).timUp (Cpu50.bg t s1).SA (exc (tickStep t s1)))
      (fun t _ => ?_) (fun t ht => ?_)
    · have hgo := mem_go hc1 (e.ros s1.ROAR) (by rw [hr1, ho.ros]; exact h29) hm t
      rw [hb t] at hgo
      rw [cycle_run e t s1 _ hgo, hr1, ho.ros]; exact hx _ _ _
    · exact k _ _ _ (fun h => by
        show (s1.timUp || _) = true
        rw [show s1.timUp = true by rw [h1]; exact hu h]; rfl) (exc_tick hc1.qt ht) (by rw [← hb t]; exact hc1.bg t ht)
  -- the cycle before it
  have wait : ∀ s1 : S, Calm e tk s1 → s1.ms = .r1 ∨ s1.ms = .r2 →
      (∃ tu sdr sa ms, s1 = { s with timUp := tu, SDR := sdr, SA := sa, ms := ms } ∧
        (s.timUp = true → tu = true)) →
      (∀ t, (t = true → tk = true) → Ev e tk P (Cpu50.bg t s1)) → Ev e tk P s1 := by
    rintro s1 hc1 hm ⟨tu, sdr, sa, ms, h1, hu⟩ h2
    refine .step (fun t => Cpu50.bg t s1) (fun t _ => ?_) h2
    have hr1 : s1.ROAR = n := by rw [h1]; exact hr
    exact cycle_held e t s1 _ (mem_wait hc1 _ (by rw [hr1, ho.ros]; exact hw) hm t)
  have mid : ∀ s1 : S, Calm e tk s1 → s1.ms = .r2 →
      (∃ tu sdr sa ms, s1 = { s with timUp := tu, SDR := sdr, SA := sa, ms := ms } ∧
        (s.timUp = true → tu = true)) →
      sdrAt s1 = sdrAt s → Ev e tk P s1 := by
    rintro s1 hc1 hm h1 h2
    refine wait s1 hc1 (.inr hm) h1 fun t ht => last _ (hc1.bg t ht) (.inl ?_) ?_ ?_
    · show bgMs s1.ms = _
      rw [hm]; rfl
    · obtain ⟨tu, sdr, sa, ms, rfl, hu⟩ := h1
      exact ⟨_, _, _, _, rfl, fun h => by show (tu || _) = true; rw [hu h]; rfl⟩
    · rw [sdrAt_bg, h2]
  have me : ∃ tu sdr sa ms, s = { s with timUp := tu, SDR := sdr, SA := sa, ms := ms } ∧
      (s.timUp = true → tu = true) := ⟨s.timUp, s.SDR, s.SA, s.ms, rfl, id⟩
  cases hm : s.ms with
  | r1 =>
    refine wait s hc (.inl hm) me fun t ht => mid _ (hc.bg t ht) ?_ ?_ (sdrAt_bg t s)
    · show bgMs s.ms = _
      rw [hm]; rfl
    · exact ⟨_, _, _, _, rfl, fun h => by show (s.timUp || _) = true; rw [h]; rfl⟩
  | r2 => exact mid s hc hm me rfl
  | r3 => exact last s hc (.inl hm) me rfl
  | w1 => exact last s hc (.inr hm) me rfl
  | zero => exact absurd hm hc.nz

/-- A reason for word 18f: the timer is to be stepped, or an external interruption is allowed. -/
def extDue (s : S) : Bool := s.timUp || s.MASK &&& 1#8 != 0#8 && (s.intr || s.timIrq)

/-- Before word 18f. -/
structure Due (e : Env) (tk : Bool) (a : Arch) (s0 s : S) : Prop where
  calm : Calm e tk s
  arch : archOf s = { a with key := 0 }
  h : ∃ h : W, s.H = h &&& 4278190080#32 ||| a.ia &&& 16777215#32
  m : s.M = 0#32
  mb : s.MB = 3#2
  il : s.ILC = s0.ILC
  ti : s.timIrq = s0.timIrq
  ik : s.intr = s0.intr
  tu : s0.timUp = true → s.timUp = true
  roar : s.ROAR = 0x18f

theorem due_roar {u : Bool} {s : S} (h : extDue s = true) (hu : s.timUp = true → u = true) (x : Bool) :
    396 ||| 2 * (u || s.MASK &&& 1#8 != 0#8 && (s.intr || s.timIrq)).toNat +
      (u || x || (u || s.MASK &&& 1#8 != 0#8 && (s.intr || s.timIrq))).toNat = 0x18f := by
  have h1 : (u || s.MASK &&& 1#8 != 0#8 && (s.intr || s.timIrq)) = true := by
    unfold extDue at h
    cases hs : s.timUp with
    | true => rw [hu hs]; rfl
    | false =>
      rw [hs, Bool.false_or] at h
      rw [h, Bool.or_true]
  rw [h1, Bool.or_true]; rfl

/-- Words 14b, 147 and 191. -/
theorem enter {e : Env} {tk : Bool} {a : Arch} {s : S} {n : Nat} (ho : EnvOk e)
    (hn : Cpu50.ros n = Cpu50.ros 0x14b) (st : Asks e tk s ∨ Calm e tk s) (ha : archOf s = a)
    (hd : extDue s = true) (hr : s.ROAR = n) : Ev e tk (Due e tk a s) s := by
  have hia : s.IA = a.ia := congrArg Arch.ia ha
  rcases st with ask | calm
  · refine Ev.acc (n := n) ho ask hr (by rw [hn, w14b]; decide)
      (fun t => by rw [hn]; exact x14b e _ _) fun t ht hc => .now ?_
    refine ⟨hc.congr (by unfold memPart; rfl), ?_, ⟨s.H, ?_⟩, rfl, rfl, rfl, rfl, rfl, ?_, ?_⟩
    · show ({ archOf s with key := 0#4 } : Arch) = _
      rw [ha]; rfl
    · rw [← hia]; rfl
    · intro h
      show (s.timUp || _) = true
      rw [h]; rfl
    · exact due_roar (u := s.timUp || (t && !s.man)) hd (fun h => by rw [h]; rfl) _
  · refine Ev.waitM (n := n) ho calm hr (by rw [hn, w14b]; decide) (by rw [hn, w14b]; decide)
      (fun tu sa ex => by rw [hn]; exact x14b e _ _) fun tu sa ex hu hex hc => .now ?_
    refine ⟨hc.congr (by unfold memPart; rfl), ?_, ⟨s.H, ?_⟩, rfl, rfl, rfl, rfl, rfl, ?_, ?_⟩
    · show ({ archOf s with key := 0#4 } : Arch) = _
      rw [ha]; rfl
    · rw [← hia]
    · exact hu
    · exact due_roar hd hu _

/-- From an exceptional condition to word 18f. -/
theorem due_exec {e : Env} {tk : Bool} {a : Arch} {s : S} (ho : EnvOk e) (h : Pend e tk a s)
    (hd : extDue s = true) : Ev e tk (Due e tk a s) s := by
  obtain ⟨hr, ha⟩ | ⟨hr, ha⟩ | ⟨hr, ha⟩ := h.at'
  · exact enter ho rfl h.st ha hd hr
  · exact enter ho (by rw [w147, w14b]) h.st ha hd hr
  · refine Ev.bind (P := fun s' => Calm e tk s' ∧ archOf s' = a ∧ extDue s' = true ∧
      s'.ILC = s.ILC ∧ s'.timIrq = s.timIrq ∧ s'.intr = s.intr ∧
      (s.timUp = true → s'.timUp = true) ∧ s'.ROAR = 0x191) ?_ ?_
    · have hx : ∀ t : Bool, extDue { s with timUp := s.timUp || (t && !s.man) } = true := by
        intro t
        unfold extDue at hd ⊢
        show ((s.timUp || (t && !s.man)) || _) = true
        cases hs : s.timUp with
        | true => rfl
        | false =>
          rw [hs, Bool.false_or] at hd
          rw [hd, Bool.or_true]
      rcases h.st with ask | calm
      · refine Ev.acc (n := 0x103) ho ask hr (by rw [w103]; decide) (fun t => x103 e _ _)
          fun t ht hc => .now ?_
        exact ⟨hc.congr (by unfold memPart; rfl), ha, hx t, rfl, rfl, rfl,
          (fun h => by show (s.timUp || _) = true; rw [h]; rfl), rfl⟩
      · refine Ev.plain (n := 0x103) ho calm hr (by rw [w103]; decide) (fun t => x103 e _ _)
          (fun t => by unfold memPart; rfl) fun t ht hc => .now ?_
        exact ⟨hc, ha, hx t, rfl, rfl, rfl,
          (fun h => by show (s.timUp || _) = true; rw [h]; rfl), rfl⟩
    · rintro s1 ⟨hc, ha, hd, il, ti, ik, tu, hr⟩
      refine (enter (n := 0x191) ho (by rw [w191, w14b]) (.inr hc) ha hd hr).bind fun s2 h2 => .now ?_
      exact ⟨h2.calm, h2.arch, h2.h, h2.m, h2.mb, h2.il.trans il, h2.ti.trans ti, h2.ik.trans ik,
        fun h => h2.tu (tu h), h2.roar⟩

/-! ### Storing -/

/-- One word, held until a store accepted together with the word before it has been done. -/
theorem Ev.stored {e : Env} {tk : Bool} {P : S → Prop} {s : S} {n : Nat} (ho : EnvOk e)
    (im : s.initMem = false) (ib : s.initBump = false) (ud : s.updD = true) (ms : s.ms = .r1)
    (hb : s.bump = false) (rg : memIx s.SA < words e) (qt : tk = false → exc s = false)
    (hr : s.ROAR = n) (hw' : ((Cpu50.ros n).tr == 29) = false) {f : Bool → Bool → S}
    (hx : ∀ tu ex, exec e (Cpu50.ros n) ex { s with timUp := tu, ms := .w1, mem := memUpd s } =
      .ok (f tu ex))
    (k : ∀ tu ex, (tk = false → ex = false) →
      (tk = false → exc { s with timUp := tu, ms := .w1, mem := memUpd s } = false) →
      Ev e tk P (f tu ex)) : Ev e tk P s := by
  rw [← ho.ros] at hw'
  -- first quarter
  refine .step (fun t => { s with timUp := s.timUp || (t && !s.man), ms := .r2 })
    (fun t _ => cycle_held e t s _ ?_) fun t ht => ?_
  · simp [memCycle, tickStep, ms, ud]
  have q1 := exc_tick qt ht
  -- second quarter
  refine .step (fun t2 => { s with timUp := s.timUp || (t && !s.man) || (t2 && !s.man), ms := .r3 })
    (fun t2 _ => cycle_held e t2 _ _ ?_) fun t2 ht2 => ?_
  · simp only [hr]
    simp [memCycle, tickStep, ud, hw', Out.bind]
  have q2 := exc_tick (s := { s with timUp := s.timUp || (t && !s.man), ms := .r2 }) q1 ht2
  generalize htu : (s.timUp || (t && !s.man) || (t2 && !s.man)) = tu
  -- third quarter
  have hmc : ∀ w t3, memCycle e w (tickStep t3 { s with timUp := tu, ms := .r3 }) =
      .ok (false, { s with timUp := tu || (t3 && !s.man), ms := .w1, mem := memUpd s }) := by
    intro w t3
    simp only [memCycle, tickStep, im, ib, ud, Cpu50.store, hb, memWrite, rg, Out.bind]
    rfl
  have q2' : tk = false → exc { s with timUp := tu, ms := .r3 } = false := by
    intro h
    rw [← q2 h, ← htu]; rfl
  refine Ev.go (fun t3 => (cycle_run e t3 _ _ (hmc _ t3)).trans (Eq.trans
    (congrArg (fun w => exec e w _ _) (by simp only [hr]; rw [ho.ros])) (hx _ _)))
    fun t3 ht3 => ?_
  refine k _ _ (exc_tick q2' ht3) (fun h => ?_)
  have := exc_tick q2' ht3 h
  rw [← this]; rfl

/-! ### Stepping the timer -/

theorem spent_carry (v : W) :
    BitVec.msb (carriesOf (~~~0x600#32) v (~~~0x600#32 + v + 1#32)) = !spent v := by
  rw [carry_sub]
  unfold spent
  rw [BitVec.toInt_sub, BitVec.toInt_eq_toNat_bmod v]
  have hv := v.isLt
  have h1 : (0x600#32).toInt = 1536 := rfl
  have h2 : (0x600#32).toNat = 1536 := rfl
  rw [h1, h2]
  by_cases h3 : v.toNat < 1536
  · have h4 : (v.toNat : Int).bmod (2 ^ 32) = v.toNat := by
      apply Int.bmod_eq_of_le <;> omega
    rw [h4, Int.bmod_eq_of_le (by omega) (by omega)]
    have h5 : ((v.toNat : Int) - 1536) < 0 := by omega
    have h6 : (0 : Int) ≤ v.toNat := by omega
    have h7 : ¬ 1536 ≤ v.toNat := by omega
    simp [h5, h7]
  · have h7 : 1536 ≤ v.toNat := by omega
    rw [decide_eq_true h7]
    by_cases h8 : v.toNat < 2 ^ 31
    · have h4 : (v.toNat : Int).bmod (2 ^ 32) = v.toNat := by
        apply Int.bmod_eq_of_le <;> omega
      rw [h4, Int.bmod_eq_of_le (by omega) (by omega)]
      have h5 : ¬ ((v.toNat : Int) - 1536) < 0 := by omega
      rw [decide_eq_false h5, Bool.and_false]; rfl
    · have h5 : ¬ (0 : Int) ≤ (v.toNat : Int).bmod (2 ^ 32) := by
        rw [Int.bmod_def]; omega
      rw [decide_eq_false h5, Bool.false_and]; rfl

theorem key_kept {a : Arch} (h : a.Kept) : a.sys.extractLsb' 20 4 = a.key := by
  have h1 : a.sys.extractLsb' 20 4 = (a.sys.extractLsb' 16 16).extractLsb' 4 4 := by
    apply BitVec.eq_of_getLsbD_eq; intro i hi
    interval_cases i <;> simp
  rw [h1, h]
  apply BitVec.eq_of_getLsbD_eq; intro i hi
  simp only [BitVec.getLsbD_extractLsb', BitVec.getLsbD_append]
  interval_cases i <;> simp

theorem low24h (h : W) {x : W} (hx : x.toNat < 2 ^ 24) :
    (h &&& 4278190080#32 ||| x &&& 16777215#32) &&& 16777215#32 = x := by
  have h1 : (h &&& 4278190080#32 ||| x &&& 16777215#32) &&& 16777215#32 = x &&& 16777215#32 := by
    apply BitVec.eq_of_getLsbD_eq; intro i hi
    interval_cases i <;> simp
  rw [h1]
  apply BitVec.eq_of_toNat_eq
  rw [BitVec.toNat_and]
  exact (Nat.and_two_pow_sub_one_eq_mod x.toNat 24).trans (Nat.mod_eq_of_lt hx)

/-- The storage word of the timer is changed, nothing else. -/
theorem timer_upd {s : S} {v : W} (h : memIx s.SA = 20) (hs : s.SDR = v) :
    ({ archOf s with mem := memUpd s } : Arch) = (archOf s).store 80 v := by
  unfold memUpd
  rw [h, hs]; rfl

/-- Words 1a3 to 1ac. -/
theorem timer_exec {e : Env} {tk i j : Bool} {a : Arch} {s : S} (ho : EnvOk e)
    (hc : Calm e tk s) (ha : archOf s = { a with key := 0 })
    (hH : ∃ h : W, s.H = h &&& 4278190080#32 ||| a.ia &&& 16777215#32)
    (hm : s.M = 80#32) (hb : s.MB = 3#2) (hk : a.Kept) (hw : 84 ≤ 4 * words e)
    (hi : InStore e a) (q : s.timIrq = i ∧ s.intr = j) (hr : s.ROAR = 0x1a3) (htk : tk = true) :
    Ev e tk (fun s' => Bd e tk a.timerTick s' ∧ s'.timIrq = (i || spent (a.mem 20)) ∧
      s'.intr = j) s := by
  have hlim := ho.lim
  have htop := ho.top
  obtain ⟨h0, hH⟩ := hH
  -- 1a3
  refine Ev.plain (n := 0x1a3) ho hc hr (by rw [w1a3]; decide) (fun t => x1a3 e _ _)
    (fun t => by unfold memPart; rfl) fun t ht hc => ?_
  refine Ev.bind (P := fun s' => (s'.timIrq = i ∧ s'.intr = j) ∧ Mid e tk { a with key := 0 } s' ∧
    s'.M = 0#32 ∧ s'.MB = 2#2 ∧ s'.R = 80#32 ∧ s'.LS 17#6 = 80#32 ∧ s'.ROAR = 0x198) (.now ?_) ?_
  · refine ⟨q, ⟨hc, arch_put17 (s := bg t s) ha rfl rfl rfl rfl rfl rfl rfl rfl rfl⟩, ?_, ?_, hm, ?_, rfl⟩
    · show putByte s.M s.MB 0#8 = _
      rw [hm, hb]; rfl
    · show s.MB - 1#2 = _
      rw [hb]; rfl
    · show lsPut s.LS 17#6 s.M 17#6 = _
      rw [hm]; exact if_pos rfl
  clear hc q ha hH hm hb hr
  rintro s1 ⟨q1, m1, mm1, mb1, r1, ls1, ro1⟩
  -- 198
  refine Ev.wait (n := 0x198) ho m1.calm ro1 (by rw [w198]; decide) (by rw [w198]; decide)
    (fun tu sa ex => x198 e _ _) fun tu sa ex hex hc => ?_
  refine Ev.bind (P := fun s' => (s'.timIrq = i ∧ s'.intr = j) ∧ Asks e tk s' ∧
    archOf s' = { a with key := 0 } ∧ s'.SAR = 80#32 ∧
    s'.M = 0x600#32 ∧ s'.LS 17#6 = 80#32 ∧ s'.ROAR = 0x1a0) (.now ?_) ?_
  · refine ⟨q1, ⟨rfl, hc.ib, rfl, ?_, ?_, hc.qt⟩, m1.arch, ?_, ?_, ls1, rfl⟩
    · show (s1.R &&& 16777215#32).toNat ≤ _
      rw [r1]; show 80 ≤ _; omega
    · intro h; rw [show _ = _ from hc.ud] at h; cases h
    · show s1.R &&& 16777215#32 = _
      rw [r1]; rfl
    · show putByte s1.M s1.MB 6#8 = _
      rw [mm1, mb1]; rfl
  clear q1 hc m1 mm1 mb1 r1 ls1 ro1 s1
  rintro s1 ⟨q1, ask, ar1, sar1, mm1, ls1, ro1⟩
  have hs1 : ∀ t, sdrAt (acc t s1) = a.mem 20 := fun t => by
    rw [sdr_acc ho ask, sar1]
    exact congrFun (congrArg Arch.mem ar1) _
  -- 1a0
  refine Ev.acc (n := 0x1a0) ho ask ro1 (by rw [w1a0]; decide) (fun t => x1a0 e _ _)
    fun t ht hc => ?_
  refine Ev.bind (P := fun s' => (s'.timIrq = i ∧ s'.intr = j) ∧ Mid e tk { a with key := 0 } s' ∧
    s'.L = 0x600#32 ∧ s'.F.toNat < 16 ∧ sdrAt s' = a.mem 20 ∧ s'.LS 17#6 = 80#32 ∧
    s'.ROAR = 0x1a4) (.now ?_) ?_
  · exact ⟨q1, ⟨hc.congr (by unfold memPart; rfl), ar1⟩, mm1, (by decide : (0#8).toNat < 16), hs1 t, ls1, rfl⟩
  clear q1 hc ask ar1 sar1 mm1 ls1 ro1 hs1 s1
  rintro s1 ⟨q1, m1, l1, f1, sd1, ls1, ro1⟩
  -- 1a4
  refine Ev.wait (n := 0x1a4) ho m1.calm ro1 (by rw [w1a4]; decide) (by rw [w1a4]; decide)
    (fun tu sa ex => x1a4 e _ _) fun tu sa ex hex hc => ?_
  refine Ev.bind (P := fun s' => (s'.timIrq = i ∧ s'.intr = j) ∧ Mid e tk { a with key := 0 } s' ∧
    s'.L = 0x600#32 ∧ s'.F.toNat < 16 ∧ s'.R = a.mem 20 ∧ s'.LS 17#6 = 80#32 ∧
    s'.ROAR = 0x1cb) (.now ?_) ?_
  · exact ⟨q1, ⟨hc.congr (by unfold memPart; rfl), m1.arch⟩, l1, f1, sd1, ls1, rfl⟩
  clear q1 hc m1 l1 f1 sd1 ls1 ro1 s1
  rintro s1 ⟨q1, m1, l1, f1, r1, ls1, ro1⟩
  -- 1cb
  refine Ev.plain (n := 0x1cb) ho m1.calm ro1 (by rw [w1cb]; decide) (fun t => x1cb e _ _)
    (fun t => by unfold memPart; rfl) fun t ht hc => ?_
  refine Ev.bind (P := fun s' => (s'.timIrq = i ∧ s'.intr = j) ∧ Mid e tk { a with key := 0 } s' ∧
    s'.L = a.mem 20 - 0x600#32 ∧ s'.F.toNat < 16 ∧ s'.R = 80#32 ∧
    s'.CAR = (!spent (a.mem 20)) ∧ s'.ROAR = 0x1cd) (.now ?_) ?_
  · refine ⟨q1, ⟨hc, m1.arch⟩, ?_, f1, ls1, ?_, rfl⟩
    · show ~~~s1.L + s1.R + 1#32 = _
      rw [l1, r1, sub_eq]
    · show BitVec.msb (carriesOf (~~~s1.L) s1.R (~~~s1.L + s1.R + 1#32)) = _
      rw [l1, r1, spent_carry]
  clear q1 hc m1 l1 f1 r1 ls1 ro1 s1
  rintro s1 ⟨q1, m1, l1, f1, r1, car1, ro1⟩
  -- 1cd
  refine Ev.wait (n := 0x1cd) ho m1.calm ro1 (by rw [w1cd]; decide) (by rw [w1cd]; decide)
    (fun tu sa ex => x1cd e _ _) fun tu sa ex hex hc => ?_
  refine Ev.bind (P := fun s' => (s'.timIrq = i ∧ s'.intr = j) ∧ Asks e tk s' ∧ s'.updD = false ∧
    archOf s' = { a with key := 0 } ∧ s'.SAR = 80#32 ∧ s'.R = a.sys ∧
    s'.L = a.mem 20 - 0x600#32 ∧ s'.F.toNat < 16 ∧
    s'.ROAR = 420 ||| 2 * (!spent (a.mem 20)).toNat + 1) (.now ?_) ?_
  · refine ⟨q1, ⟨rfl, hc.ib, rfl, ?_, ?_, hc.qt⟩, hc.ud, m1.arch, ?_, ?_, l1, f1, ?_⟩
    · show (s1.R &&& 16777215#32).toNat ≤ _
      rw [r1]; show 80 ≤ _; omega
    · intro h; rw [show _ = _ from hc.ud] at h; cases h
    · show s1.R &&& 16777215#32 = _
      rw [r1]; rfl
    · exact congrArg Arch.sys m1.arch
    · show 420 ||| 2 * s1.CAR.toNat + 1 = _
      rw [car1]
  clear q1 hc m1 l1 f1 r1 car1 ro1 s1
  rintro s1 ⟨q1, ask, ud1, ar1, sar1, r1, l1, f1, ro1⟩
  have hkey : s1.KEY = 0#4 := congrArg Arch.key ar1
  -- 1a5, 1a7
  refine Ev.bind (P := fun s' => (s'.timIrq = (i || spent (a.mem 20)) ∧ s'.intr = j) ∧
    s'.initMem = false ∧ s'.initBump = false ∧ s'.updD = true ∧ s'.ms = .r1 ∧ s'.bump = false ∧
    memIx s'.SA = 20 ∧ (tk = false → exc s' = false) ∧
    archOf s' = { a with key := 0 } ∧ s'.R = a.sys ∧
    s'.SDR = a.mem 20 - 0x600#32 ∧ s'.F.toNat < 16 ∧ s'.ROAR = 0x1a8) ?_ ?_
  · cases hsp : spent (a.mem 20) with
    | true =>
      rw [hsp] at ro1
      refine Ev.acc (n := 0x1a5) ho ask ro1 (by rw [w1a5]; decide) (fun t => x1a5 e _ _ hkey)
        fun t ht hc => .now ?_
      refine ⟨⟨(Bool.or_true i).symm, q1.2⟩, rfl, rfl, rfl, rfl, rfl, ?_, (fun h => by rw [htk] at h; cases h),
        ?_, r1, l1, f1, rfl⟩
      · show memIx (s1.SAR &&& 0x3ffff) = _
        rw [memIx_and, sar1]; rfl
      · rw [← ar1]
        show ({ archOf s1 with key := 0#4 } : Arch) = _
        rw [ar1]; rfl
    | false =>
      rw [hsp] at ro1
      refine Ev.acc (n := 0x1a7) ho ask ro1 (by rw [w1a7]; decide) (fun t => x1a7 e _ _ hkey)
        fun t ht hc => .now ?_
      refine ⟨⟨by rw [Bool.or_false]; exact q1.1, q1.2⟩, rfl, rfl, rfl, rfl, rfl, ?_,
        (fun h => by rw [htk] at h; cases h), ?_, r1, l1, f1, rfl⟩
      · show memIx (s1.SAR &&& 0x3ffff) = _
        rw [memIx_and, sar1]; rfl
      · rw [← ar1]
        show ({ archOf s1 with key := 0#4 } : Arch) = _
        rw [ar1]; rfl
  clear q1 hkey ask ud1 ar1 sar1 r1 l1 f1 ro1 s1
  rintro s1 ⟨q1, im1, ib1, ud1, ms1, bu1, sa1, qt1, ar1, r1, sd1, f1, ro1⟩
  -- 1a8
  refine Ev.stored (n := 0x1a8) ho im1 ib1 ud1 ms1 bu1 (by rw [sa1]; omega) qt1 ro1
    (by rw [w1a8]; decide) (fun tu ex => x1a8 e _ _) fun tu ex hex hx => ?_
  refine Ev.bind (P := fun s' => (s'.timIrq = (i || spent (a.mem 20)) ∧ s'.intr = j) ∧
    Back e tk s' ∧ memIx s'.SA = 20 ∧ archOf s' = a.timerTick ∧
    (∃ h, s'.H = h &&& 4278190080#32 ||| a.ia &&& 16777215#32) ∧
    s'.SDR = a.mem 20 - 0x600#32 ∧ s'.F.toNat < 16 ∧ s'.ROAR = 0x1ac) (.now ?_) ?_
  · refine ⟨q1, ⟨im1, ib1, ud1, rfl, bu1, ?_, hx⟩, sa1, ?_, ⟨s1.H, ?_⟩, sd1, f1, rfl⟩
    · show memIx s1.SA < _
      rw [sa1]; omega
    · show ({ ({ archOf s1 with mem := memUpd s1 } : Arch) with key := (s1.R >>> 20).setWidth 4 } : Arch) = _
      rw [timer_upd sa1 sd1, ar1, r1, key_of, key_kept hk]; rfl
    · have : s1.IA = a.ia := congrArg Arch.ia ar1
      rw [← this]
  clear q1 hx im1 ib1 ud1 ms1 bu1 sa1 qt1 ar1 r1 sd1 f1 ro1 s1
  rintro s1 ⟨q1, bk, sa1, ar1, ⟨h1, hh1⟩, sd1, f1, ro1⟩
  -- 1ac
  have hj : a.timerTick.jump s1.H = a.timerTick := by
    rw [hh1]
    show ({ a.timerTick with ia := (h1 &&& 4278190080#32 ||| a.ia &&& 16777215#32) &&& 16777215#32 } : Arch) = _
    rw [low24h h1 (by have := hi.rg; omega)]; rfl
  refine Ev.back (n := 0x1ac) ho bk ro1 (fun tu ex => x1ac e _ _) fun tu ex hc => .now ⟨?_, q1⟩
  rw [← hj]
  refine branch_end (s := wrote tu s1) ho hc f1 (by rw [hj]; exact ⟨hi.ev, hi.rg⟩)
    (fun h => by rw [htk] at h; cases h) (fun h => by rw [htk] at h; cases h) bk.ms ?_ rfl rfl rfl rfl rfl rfl rfl rfl
  show ({ archOf s1 with mem := memUpd s1 } : Arch) = _
  rw [timer_upd sa1 sd1, ar1]
  unfold Arch.timerTick Arch.store
  congr 1
  funext k
  show (if k = 20 then _ else if k = 20 then _ else _) = if k = 20 then _ else _
  split <;> rfl

/-! ### External interruptions -/

/-- One word, when interruptions may be asked for. -/
theorem plainT {e : Env} {tk : Bool} {P : S → Prop} {s : S} (ho : EnvOk e)
    (hc : Calm e tk s)
    {n : Nat} (hr : s.ROAR = n) (hp : Cpu50.plain (Cpu50.ros n) = true) {f : Bool → S}
    (hx : ∀ t, exec e (Cpu50.ros n) (exc (tickStep t s)) (Cpu50.bg t s) = .ok (f t))
    (k : ∀ t, (t = true → tk = true) → Calm e tk (Cpu50.bg t s) → Ev e tk P (f t)) :
    Ev e tk P s := by
  refine .step f (fun t _ => ?_) (fun t ht => k t ht (hc.bg t ht))
  rw [cycle_plain e t s hc (by rw [hr, ho.ros]; exact hp), hr, ho.ros]
  exact hx t

/-- Word 18f, then the timer is stepped or an external interruption is taken. -/
theorem ext_exec {e : Env} {tk : Bool} {a : Arch} {s0 s : S} (ho : EnvOk e)
    (h : Due e tk a s0 s) (hd : extDue s0 = true) (hk : a.Kept) (hw : 112 ≤ 4 * words e)
    (hi : InStore e a)
    (hn : s0.timUp = false → InStore e (interrupt a 24 (extCode s0.timIrq) s0.ILC))
    (htk : tk = true) :
    Ev e tk (fun s' =>
      (Bd e tk a.timerTick s' ∧ s'.timIrq = (s0.timIrq || spent (a.mem 20)) ∧ s'.intr = s0.intr) ∨
      (s0.timUp = false ∧ Bd e tk (interrupt a 24 (extCode s0.timIrq) s0.ILC) s' ∧
        s'.timIrq = false ∧ s'.intr = (s0.timIrq && s0.intr))) s := by
  have hm80 : putByte s.M s.MB 80#8 = 80#32 := by rw [h.m, h.mb]; rfl
  have no : ∀ p : Prop, tk = false → p := fun p h => by rw [htk] at h; cases h
  refine plainT (n := 0x18f) ho h.calm h.roar (by rw [w18f]; decide) (fun t => x18f e _ _)
    fun t ht hc0 => ?_
  refine Ev.bind (P := fun s' => Calm e tk s' ∧ archOf s' = { a with key := 0 } ∧
    (∃ h : W, s'.H = h &&& 4278190080#32 ||| a.ia &&& 16777215#32) ∧ s'.M = 80#32 ∧ s'.MB = 3#2 ∧
    s'.ILC = s0.ILC ∧ s'.timIrq = s0.timIrq ∧ s'.intr = s0.intr ∧ ∃ u : Bool,
    (s0.timUp = true → u = true) ∧ s'.ROAR = 416 ||| 2 * u.toNat + 1) (.now ?_) ?_
  · refine ⟨⟨hc0.im, hc0.ib, hc0.ud, hc0.nz, hc0.rg, no _⟩, h.arch, h.h, hm80, h.mb, h.il, h.ti, h.ik,
      (bg t s).timUp, fun h1 => ?_, rfl⟩
    show (s.timUp || _) = true
    rw [h.tu h1]; rfl
  clear h hm80 hc0
  rintro s1 ⟨hc, ar1, hh1, mm1, mb1, il1, ti1, ik1, u, hu, ro1⟩
  cases u with
  | true =>
    refine Ev.bind (timer_exec (a := a) (i := s0.timIrq) (j := s0.intr) ho hc ar1 hh1 mm1 mb1 hk
      (by omega) hi ⟨ti1, ik1⟩ ro1 htk) fun s' h' => .now (.inl h')
  | false =>
    have hu0 : s0.timUp = false := by
      cases h1 : s0.timUp with
      | false => rfl
      | true => exact absurd (hu h1) (by decide)
    have hreq : (s0.intr || s0.timIrq) = true := by
      unfold extDue at hd
      rw [hu0, Bool.false_or, Bool.and_eq_true] at hd
      exact hd.2
    refine plainT (n := 0x1a1) ho hc ro1 (by rw [w1a1]; decide) (fun t => x1a1 e _ _)
      fun t2 ht2 hc2 => ?_
    have hcode : ∀ x : B, (if s1.timIrq = true then 128#8 else if s1.intr = true then 64#8 else x) =
        if s0.timIrq then 128#8 else 64#8 := by
      intro x
      rw [ti1, ik1]
      cases h1 : s0.timIrq with
      | true => rfl
      | false =>
        rw [h1, Bool.or_false] at hreq
        rw [hreq]; rfl
    refine Ev.bind (swap_execq (a := a) (p := 24#32) (c := if s0.timIrq then 128#8 else 64#8)
      (ilc := s0.ILC) (i := false) (j := s0.timIrq && s0.intr)
      (b := interrupt a 24 (extCode s0.timIrq) s0.ILC) ho
      ⟨⟨hc2.im, hc2.ib, hc2.ud, hc2.nz, hc2.rg, no _⟩, ?_, rfl, ?_, il1, rfl⟩ hk
      (Nat.le_trans (by decide) hw) rfl ?_ (no _) (hn hu0) ⟨?_, ?_⟩) ?_
    · exact congrArg (fun x : Arch => { x with key := 0 }) ar1
    · show (BitVec.setWidth 4 ((if s1.timIrq = true then 128#8 else if s1.intr = true then 64#8 else
        s1.u) >>> 4)).setWidth 8 <<< 4 ||| ((if s1.timIrq = true then 128#8 else
        if s1.intr = true then 64#8 else s1.u) &&& 15#8) = _
      rw [hcode]
      cases s0.timIrq <;> rfl
    · show _ = interrupt a 24 _ _
      cases s0.timIrq <;> rfl
    · intro h; cases h
    · show (s1.timIrq && s1.intr) = _
      rw [ti1, ik1]
    · rintro s' ⟨h1, h2, h3⟩
      refine .now (.inr ⟨hu0, h1, ?_, h3⟩)
      cases h4 : s'.timIrq with
      | false => rfl
      | true => exact absurd (h2 h4) (by decide)

end Verif.Cpu50
