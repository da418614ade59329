import Verif.Cpu50.Rx4
import Verif.Cpu50.Words4

/-!
# Model 2050: SI instructions

TM, MVI, NI, CLI, OI and XI.
-/

namespace Verif.Cpu50
open Verif.S360
attribute [local irreducible] ros

/-- The operand address (more than 24 bits of it) is in `R`, the first half of the instruction
in the left half of `M`. -/
structure Op9 (e : Env) (tk : Bool) (a : Arch) (i : BitVec 16) (x : W) (s : S) : Prop where
  ae : AtEnd e tk a s
  fn : s.FN = 3#2
  lb : s.LB = 1#2
  md : s.MD = dig1 i
  il : s.ILC = 2#2
  m : s.M.extractLsb' 16 16 = i
  r : s.R &&& 16777215#32 = x
  roar : s.ROAR = 2304 ||| ((opOf i).toNat % 16) <<< 2 ||| 2

theorem gr_put17 (ls : BitVec 6 → W) (v : W) :
    (fun i : BitVec 4 => lsPut ls 17#6 v (3#2 ++ i)) = fun i => ls (3#2 ++ i) := by
  have h : ∀ i : BitVec 4, ¬ (3#2 ++ i : BitVec 6) = 17#6 := by decide
  funext i
  simp only [lsPut]; exact if_neg (h i)

theorem fr_put17 (ls : BitVec 6 → W) (v : W) :
    (fun i : BitVec 4 => lsPut ls 17#6 v (2#2 ++ i)) = fun i => ls (2#2 ++ i) := by
  have h : ∀ i : BitVec 4, ¬ (2#2 ++ i : BitVec 6) = 17#6 := by decide
  funext i
  simp only [lsPut]; exact if_neg (h i)

/-- The working register 17 is not visible. -/
theorem arch_put17 {a : Arch} {s s' : S} {v : W} (h : archOf s = a)
    (ls : s'.LS = lsPut s.LS 17#6 v) (cc : s'.CC = s.CC) (pm : s'.PMASK = s.PMASK)
    (ia : s'.IA = s.IA) (mem : s'.mem = s.mem) (mp : s'.MP = s.MP) (key : s'.KEY = s.KEY)
    (am : s'.AMWP = s.AMWP) (mk : s'.MASK = s.MASK) : archOf s' = a := by
  subst h
  simp only [archOf, ls, cc, pm, ia, mem, mp, key, am, mk, gr_put17, fr_put17]
  rfl

/-- `124` or `125`. -/
theorem to_op9 {e : Env} {tk : Bool} {a : Arch} {i i1 : BitVec 16} {s : S} (ho : EnvOk e)
    (h : FetRX e tk a i i1 s) (hop : (opOf i).toNat / 16 = 9) :
    Ev e tk (Op9 e tk a i (ea a 0 (i1.extractLsb' 12 4) (i1.extractLsb' 0 12))) s := by
  have hro := h.roar
  have h64 : ¬ (opOf i).toNat / 64 = 1 := by omega
  rw [hop, decide_eq_false h64, Bool.and_false] at hro
  have hd := h.d
  have h1 := h.s1
  have hl := h.l
  unfold ea
  generalize hB : i1.extractLsb' 12 4 = b at *
  generalize hD : (i1.extractLsb' 0 12).setWidth 32 = d at *
  rw [if_pos rfl]
  by_cases hb : b = 0
  · rw [if_pos hb]
    rw [hb] at h1
    rw [h1] at hro
    have hz : (0 : W) + 0 + d = s.M &&& 65535#32 := by rw [hd]; simp
    rw [hz]
    refine Ev.plain ho h.calm (n := 0x125) hro (by rw [w125]; decide) (fun t => x125 e _ _)
      (fun t => by unfold memPart; rfl) fun t ht hc => .now ?_
    exact ⟨h.atEnd.upd hc (arch_put17 h.arch rfl rfl rfl rfl rfl rfl rfl rfl rfl) rfl rfl rfl rfl rfl
      rfl rfl, h.fn, h.lb, h.md, h.ilc, h.m1, rfl, by simp only [bg, nib6 h.m1]⟩
  · rw [if_neg hb]
    rw [show (b == 0) = false by simpa using hb] at h1
    rw [h1] at hro
    have hz : (0 : W) + a.gr b + d = s.L + (s.M &&& 65535#32) := by rw [hd, hl]; simp
    rw [hz]
    refine Ev.plain ho h.calm (n := 0x124) hro (by rw [w124]; decide) (fun t => x124 e _ _)
      (fun t => by unfold memPart; rfl) fun t ht hc => .now ?_
    exact ⟨h.atEnd.upd hc (arch_put17 h.arch rfl rfl rfl rfl rfl rfl rfl rfl rfl) rfl rfl rfl rfl rfl
      rfl rfl, h.fn, h.lb, h.md, h.ilc, h.m1, rfl, by simp only [bg, nib6 h.m1]⟩

theorem byte_imm {m : W} {i : BitVec 16} (h : m.extractLsb' 16 16 = i) : byteOf m 1#2 = immOf i := by
  subst h
  apply BitVec.eq_of_getLsbD_eq; intro i hi
  interval_cases i <;> simp [byteOf, immOf]

/-- MVI. -/
theorem mvi_exec {e : Env} {tk : Bool} {a : Arch} {i : BitVec 16} {x : W} {s : S} (ho : EnvOk e)
    (h : Op9 e tk a i x s) (hop : (opOf i).toNat = 0x92) (hx : x.toNat < 4 * words e)
    (hk : a.permits x) (hi : InStore e a) :
    Ev e tk (Bd e tk (a.storeByte x.toNat (immOf i))) s := by
  have hro := h.roar
  rw [hop] at hro
  refine Ev.wait (n := 0x90a) ho h.ae.calm hro (by rw [w90a]; decide) (by rw [w90a]; decide)
    (fun tu sa ex => x90a e _ _) fun tu sa ex hex hc2 => ?_
  have hq := Req.mk' (i := i) ho h.ae h.fn h.md hx (s' := { s with
    timUp := tu, SDR := sdrAt s, SA := sa, ms := .w1,
    SAR := s.R &&& 16777215#32, alu := s.R, aob := s.R, u := BitVec.setWidth 8 s.R,
    w := BitVec.setWidth 8 s.R,
    BS := 0#4, MB := BitVec.setWidth 2 s.R, EDST := 3#2, LSA := s.FN ++ s.J, initMem := true,
    ROAR := 0x91c })
    rfl rfl rfl rfl hc2.qt rfl rfl rfl rfl rfl rfl rfl h.r
  refine Ev.acc (n := 0x91c) ho hq.ask rfl (by rw [w91c]; decide) (fun t => x91c e _ _)
    fun t ht hc => ?_
  obtain ⟨hsa, hxw⟩ := hq.sa ho t
  have hae := hq.acc hc
  have hpm := permit_of hq.arch hq.sar hk (by have := ho.lim; omega)
  refine st29 (n := 0x920) ho (hae.upd (hc.congr (by unfold memPart; rfl)) hq.arch rfl rfl rfl rfl rfl
    rfl rfl) rfl rfl hsa hxw (hpm.congr rfl rfl rfl) hi rfl (by rw [w920]; rfl)
    (fun ex s hk => ⟨_, _, x920_k e ex s hk⟩) fun tu => ?_
  refine (stc_val _ _ _ _).trans ?_
  show (s.mem (memIx (acc t _).SA) &&& _ ||| (byteOf s.M s.LB).setWidth 32 <<< _ : W) = _
  have h2 : (s.R.setWidth 2).toNat = x.toNat % 4 := low2 h.r
  rw [hsa]
  show (s.mem (x.toNat / 4) &&& ~~~(255#32 <<< (24 - 8 * (s.R.setWidth 2).toNat)) |||
    (byteOf s.M s.LB).setWidth 32 <<< (24 - 8 * (s.R.setWidth 2).toNat) : W) = _
  rw [h2, h.lb, byte_imm h.m, ← h.ae.arch]
  rfl

/-- A word in the quarter in which a store is written back. -/
theorem Ev.wb {e : Env} {tk : Bool} {P : S → Prop} {s : S} (ho : EnvOk e)
    (im : s.initMem = false) (ib : s.initBump = false) (ud : s.updD = true) (ms : s.ms = .w1)
    (hb : s.bump = false) (rg : memIx s.SA < words e) {n : Nat} (hr : s.ROAR = n) {f : Bool → S}
    (hx : ∀ t, exec e (Cpu50.ros n) (exc (tickStep t s)) { s with
      timUp := s.timUp || (t && !s.man), updD := false, mem := memUpd s,
      REFETCH := s.REFETCH || decide (s.SA >>> 2 = s.IA >>> 2),
      SA := s.SAR &&& 0x3ffff } = .ok (f t))
    (k : ∀ t, (t = true → tk = true) → Ev e tk P (f t)) : Ev e tk P s := by
  have hmc : ∀ w t, memCycle e w (tickStep t s) = .ok (false,
      { s with timUp := s.timUp || (t && !s.man), updD := false, mem := memUpd s,
               REFETCH := s.REFETCH || decide (s.SA >>> 2 = s.IA >>> 2),
               SA := s.SAR &&& 0x3ffff }) := by
    intro w t
    simp only [memCycle, tickStep, ms, writeBack, ud, hb, rg, Out.bind, accept, im, ib]
    rfl
  exact Ev.go (fun t => (cycle_run e t s _ (hmc _ t)).trans (Eq.trans
    (congrArg (fun w => exec e w _ _) (by rw [hr, ho.ros])) (hx t))) k

/-- After it, the store done. -/
theorem wb_end {e : Env} {tk : Bool} {a a' : Arch} {s s' : S} {t : Bool}
    (im : s.initMem = false) (ib : s.initBump = false) (ms : s.ms = .w1)
    (qt : tk = false → exc s = false)
    (arch : { archOf s with mem := memUpd s } = a) (f : s.F.toNat < 16)
    (odd : a.ia.toNat % 4 = 2 → s.REFETCH = false → s.LS 30 = s.mem (a.ia.toNat / 4) ∧
      s.SYLS1 = (s.LS 30 &&& 0xc000#32 == 0#32)) (iva : s.IVA = false)
    (ht : t = true → tk = true)
    (hmp : memPart s' = memPart { s with
      timUp := s.timUp || (t && !s.man), updD := false, mem := memUpd s,
      REFETCH := s.REFETCH || decide (s.SA >>> 2 = s.IA >>> 2), SA := s.SAR &&& 0x3ffff })
    (harch : archOf s' = a') (hm : a'.mem = a.mem) (hia : a'.ia = a.ia)
    (hF : s'.F = s.F) (hi : s'.IVA = s.IVA)
    (hr : s'.REFETCH = (s.REFETCH || decide (s.SA >>> 2 = s.IA >>> 2)))
    (hl : s'.LS 30 = s.LS 30) (hs : s'.SYLS1 = s.SYLS1) : AtEnd e tk a' s' := by
  have hc : Calm e tk { s with
      timUp := s.timUp || (t && !s.man), updD := false, mem := memUpd s,
      REFETCH := s.REFETCH || decide (s.SA >>> 2 = s.IA >>> 2), SA := s.SAR &&& 0x3ffff } := by
    refine ⟨im, ib, rfl, by show s.ms ≠ _; rw [ms]; decide, ?_, fun h => ?_⟩
    · show s.ms = _ ∨ s.ms = _ → _
      rw [ms]; rintro (h | h) <;> cases h
    · have := exc_tick qt ht h
      rw [← this]; rfl
  refine ⟨hc.congr hmp, harch, by rw [hF]; exact f, by rw [hi]; exact iva, ?_⟩
  intro h1 h2
  rw [hia] at h1 ⊢
  rw [hr] at h2
  simp only [Bool.or_eq_false_iff, decide_eq_false_iff_not] at h2
  obtain ⟨h3, h4⟩ := odd h1 h2.1
  rw [hl, hs, hm]
  refine ⟨?_, h4⟩
  rw [h3, ← arch]
  show _ = memUpd s _
  unfold memUpd
  rw [if_neg]
  intro h5
  refine h2.2 (BitVec.eq_of_toNat_eq ?_)
  rw [show s.IA = a.ia by rw [← arch]; rfl]
  show memIx s.SA = _
  rw [← h5, BitVec.toNat_ushiftRight, Nat.shiftRight_eq_div_pow, ← arch]

/-- `924 928 92c` and the condition code: the operand is changed by a logical function. -/
theorem logic_run {e : Env} {tk : Bool} {a : Arch} {i : BitVec 16} {x : W} {s : S} {v : B}
    (ho : EnvOk e) (h : Req e tk a i x s) (hro : s.ROAR = 0x924)
    (hr : s.R &&& 16777215#32 = x) (hmb : s.MB = s.R.setWidth 2) (hlb : s.LB = 1#2)
    (hm : s.M.extractLsb' 16 16 = i) (hx : x.toNat < 4 * words e) (hk : a.permits x)
    (hi : InStore e a)
    (hv : mvfL s.mvf (a.byte x.toNat) (immOf i) ||| mvfR s.mvf (a.byte x.toNat) (immOf i) = v) :
    Ev e tk (Bd e tk (putLogical a x.toNat v)) s := by
  refine Ev.accWait (n := 0x924) ho h.ask hro (by rw [w924]; decide) fun t ht hc => ?_
  have hae := h.acc hc
  have hsd := sdr_acc ho h.ask t
  rw [h.sar] at hsd
  refine Ev.wait (n := 0x924) ho hc hro (by rw [w924]; decide) (by rw [w924]; decide)
    (fun tu sa ex => x924 e _ _) fun tu sa ex hex hc2 => ?_
  refine Ev.bind (P := fun s' => AtEnd e tk a s' ∧ s'.FN = 3#2 ∧ s'.MD = dig1 i ∧ s'.R = s.R ∧
    s'.MB = s.MB ∧ s'.LB = 1#2 ∧ s'.M = s.M ∧ s'.mvf = s.mvf ∧ s'.BS = 0#4 ∧
    s'.L = a.mem (x.toNat / 4) ∧ s'.ROAR = 0x928) (.now ?_) ?_
  · refine ⟨hae.upd (hc2.congr (by unfold memPart; rfl)) h.arch rfl rfl rfl rfl rfl rfl rfl, h.fn,
      h.md, rfl, rfl, hlb, rfl, rfl, rfl, ?_, rfl⟩
    exact hsd.trans (by rw [← h.arch]; rfl)
  rintro s2 ⟨ae2, fn2, md2, r2, mb2, lb2, m2, mvf2, bs2, l2, ro2⟩
  refine Ev.wait (n := 0x928) ho ae2.calm ro2 (by rw [w928]; decide) (by rw [w928]; decide)
    (fun tu sa ex => x928 e _ _) fun tu sa ex hex hc3 => ?_
  have hb : byteOf (a.mem (x.toNat / 4)) (s.R.setWidth 2) = a.byte x.toNat := by
    rw [byteOf_eq, low2 hr]; rfl
  have hw : mvfL s2.mvf (byteOf s2.L s2.MB) (byteOf s2.M s2.LB) |||
      mvfR s2.mvf (byteOf s2.L s2.MB) (byteOf s2.M s2.LB) = v := by
    rw [mvf2, l2, mb2, m2, lb2, hmb, hb, byte_imm hm]; exact hv
  refine Ev.bind (P := fun s' => Req e tk a i x s' ∧ s'.M = putByte s.M s.MB v ∧ s'.w = v ∧
    s'.BS = 0#4 ||| 8#4 >>> s.MB.toNat ∧ s'.ROAR = 0x92c) (.now ?_) ?_
  · refine ⟨Req.mk' ho ae2 fn2 md2 hx rfl rfl rfl rfl hc3.qt rfl rfl rfl rfl rfl rfl rfl
      (by rw [← hr, ← r2]), ?_, hw, ?_, rfl⟩
    · refine (congrArg (putByte s2.M s2.MB) hw).trans ?_
      rw [m2, mb2]
    · show s2.BS ||| 8#4 >>> s2.MB.toNat = _
      rw [bs2, mb2]
  rintro s3 ⟨hq, m3, w3, bs3, ro3⟩
  refine Ev.accWait (n := 0x92c) ho hq.ask ro3 (by rw [w92c]; decide) fun t4 ht4 hc4 => ?_
  obtain ⟨hsa, hxw⟩ := hq.sa ho t4
  have ae4 := hq.acc hc4
  have hpm := permit_of hq.arch hq.sar hk (by have := ho.lim; omega)
  refine Ev.mod (n := 0x92c) ho hc4 rfl rfl ro3 (by rw [w92c]; rfl)
    (fun tu ex => x92c_k e ex _ (hpm.congr rfl rfl rfl)) fun tu ex hex hc5 => ?_
  have hval : (s3.mem (memIx (acc t4 s3).SA) &&& ~~~bsMask s3.BS ||| s3.M &&& bsMask s3.BS : W) =
      (a.mem (x.toNat / 4) &&& ~~~(0xff#32 <<< (24 - 8 * (x.toNat % 4)))) |||
        v.setWidth 32 <<< (24 - 8 * (x.toNat % 4)) := by
    rw [hsa, m3, bs3, stc_val, hmb, low2 hr, ← hq.arch]; rfl
  have key : ∀ (n : Nat) (c : BitVec 2), (∀ ex (s : S), exec e (Cpu50.ros n) ex s = .ok { s with
      alu := 0#32, aob := 0#32, u := 0#8, w := 0#8, EDST := 3#2, CC := c, LSA := s.FN ++ s.J,
      ROAR := 0x197 }) → (2332 ||| 2 * (s3.w == 0#8).toNat + 1) = n →
      Ev e tk (Bd e tk ((a.storeByte x.toNat v).setCC c)) { acc t4 s3 with
        timUp := tu, SDR := s3.mem (memIx (acc t4 s3).SA) &&& ~~~bsMask s3.BS ||| s3.M &&& bsMask s3.BS,
        ms := .w1, alu := s3.M, aob := s3.M, u := 0#8, w := 0#8, EDST := 3#2, LSA := s3.FN ++ s3.J,
        updD := true, ROAR := 2332 ||| 2 * (s3.w == 0#8).toNat + 1 } := by
    intro n c hx9 hn
    have harch : archOf { acc t4 s3 with mem := (fun i => if i = memIx (acc t4 s3).SA then
        (s3.mem (memIx (acc t4 s3).SA) &&& ~~~bsMask s3.BS ||| s3.M &&& bsMask s3.BS : W)
        else s3.mem i) } = a.storeByte x.toNat v := by
      rw [hval, hsa, ← hq.arch]; rfl
    refine Ev.wb ho hc4.im hc4.ib rfl rfl rfl (by show memIx (acc t4 s3).SA < _; rw [hsa]; exact hxw)
      hn (fun t => hx9 _ _) fun t5 ht5 => ?_
    refine end_a (n := 0x197) ho (wb_end (a := a.storeByte x.toNat v) (t := t5) (s := { acc t4 s3 with
        timUp := tu, SDR := s3.mem (memIx (acc t4 s3).SA) &&& ~~~bsMask s3.BS ||| s3.M &&& bsMask s3.BS,
        ms := .w1, alu := s3.M, aob := s3.M, u := 0#8, w := 0#8, EDST := 3#2, LSA := s3.FN ++ s3.J,
        updD := true, ROAR := 2332 ||| 2 * (s3.w == 0#8).toNat + 1 }) hc4.im hc4.ib rfl
      (fun h1 => ?_) harch hq.f ?_ rfl ht5 (by unfold memPart; rfl)
      (congrArg (fun b => Arch.setCC b c) harch) rfl rfl rfl rfl rfl rfl rfl) (hi.same rfl) rfl
      (by rw [w197, w144])
    · rw [← hc5.qt h1]; rfl
    · intro h1 h2
      have h3 := ae4.odd h1 h2
      rw [show a.mem = s3.mem by rw [← hq.arch]; rfl] at h3
      exact h3
  unfold putLogical
  by_cases h0 : v = 0
  · rw [if_pos h0]
    exact key 0x91f 0 (fun ex s => x91f e ex s) (by rw [w3, h0]; rfl)
  · rw [if_neg h0]
    exact key 0x91d 1 (fun ex s => x91d e ex s)
      (by rw [w3, show (v == 0#8) = false by simpa using h0]; rfl)

theorem mvf_and (u v : B) : mvfL 2#3 u v ||| mvfR 2#3 u v = u &&& v := by
  apply BitVec.eq_of_getLsbD_eq; intro i hi
  interval_cases i <;> simp [mvfL, mvfR, Bool.and_comm]

theorem mvf_or (u v : B) : mvfL 1#3 u v ||| mvfR 1#3 u v = u ||| v := by
  apply BitVec.eq_of_getLsbD_eq; intro i hi
  interval_cases i <;> simp [mvfL, mvfR, Bool.or_comm]

theorem mvf_xor (u v : B) : mvfL 3#3 u v ||| mvfR 3#3 u v = u ^^^ v := by
  apply BitVec.eq_of_getLsbD_eq; intro i hi
  interval_cases i <;> simp [mvfL, mvfR, Bool.xor_comm]

/-- NI, OI and XI. -/
theorem logic_exec {e : Env} {tk : Bool} {a : Arch} {i : BitVec 16} {x : W} {s : S} {n : Nat}
    {f : BitVec 3} {v : B} (ho : EnvOk e)
    (h : Op9 e tk a i x s) (hop : (2304 ||| ((opOf i).toNat % 16) <<< 2 ||| 2) = n)
    (hn : ∀ ex (s : S), exec e (Cpu50.ros n) ex s = .ok { s with
      SAR := s.R &&& 16777215#32, alu := s.R, aob := s.R, u := BitVec.setWidth 8 s.R,
      w := BitVec.setWidth 8 s.R,
      MB := BitVec.setWidth 2 s.R, EDST := 3#2, mvf := f, LSA := s.FN ++ s.J, initMem := true,
      ROAR := 0x924 })
    (hw : (interlocked (Cpu50.ros n).tr || usesStore (Cpu50.ros n)) = true)
    (h29 : ((Cpu50.ros n).tr == 29) = false)
    (hx : x.toNat < 4 * words e) (hk : a.permits x) (hi : InStore e a)
    (hv : mvfL f (a.byte x.toNat) (immOf i) ||| mvfR f (a.byte x.toNat) (immOf i) = v) :
    Ev e tk (Bd e tk (putLogical a x.toNat v)) s := by
  have hro := h.roar
  rw [hop] at hro
  refine Ev.wait ho h.ae.calm hro hw h29 (fun tu sa ex => hn _ _) fun tu sa ex hex hc2 => ?_
  exact logic_run ho (Req.mk' (i := i) ho h.ae h.fn h.md hx rfl rfl rfl rfl hc2.qt rfl rfl rfl rfl
    rfl rfl rfl h.r) rfl h.r rfl h.lb h.m hx hk hi hv

theorem AtEnd.updF {e : Env} {tk : Bool} {a a' : Arch} {s s' : S} (h : AtEnd e tk a s)
    (hc : Calm e tk s') (harch : archOf s' = a') (hm : a'.mem = a.mem) (hia : a'.ia = a.ia)
    (hF : s'.F.toNat < 16) (hi : s'.IVA = s.IVA) (hr : s'.REFETCH = s.REFETCH)
    (hl : s'.LS 30 = s.LS 30) (hs : s'.SYLS1 = s.SYLS1) : AtEnd e tk a' s' := by
  refine ⟨hc, harch, hF, by rw [hi]; exact h.iva, ?_⟩
  intro h1 h2
  rw [hia] at h1
  rw [hr] at h2
  rw [hl, hs, hm, hia]
  exact h.odd h1 h2

theorem and15_lt (b : B) : (b &&& 15#8).toNat < 16 := by
  rw [BitVec.toNat_and]
  exact Nat.lt_of_le_of_lt Nat.and_le_right (by decide)

theorem md_imm (b : B) : ((b >>> 4).setWidth 4).setWidth 8 <<< 4 ||| (b &&& 15#8) = b := by
  apply BitVec.eq_of_getLsbD_eq; intro i hi
  interval_cases i <;> simp

theorem cli_bits (l : W) (b : B) (k : BitVec 2) :
    l &&& bsMask (0#4 ||| 8#4 >>> k.toNat) = (byteOf l k).setWidth 32 <<< (24 - 8 * k.toNat) ∧
    putByte 4294967295#32 k (b ^^^ 255#8) = ~~~(b.setWidth 32 <<< (24 - 8 * k.toNat)) := by
  have h : ∀ k : BitVec 2, k = 0 ∨ k = 1 ∨ k = 2 ∨ k = 3 := by decide
  constructor
  · rcases h k with rfl | rfl | rfl | rfl <;>
    · apply BitVec.eq_of_getLsbD_eq; intro i hi
      interval_cases i <;> simp [byteOf, bsMask]
  · rcases h k with rfl | rfl | rfl | rfl <;>
    · apply BitVec.eq_of_getLsbD_eq; intro i hi
      interval_cases i <;> simp [putByte]

theorem mask_zero (z : W) (k : BitVec 2) : (z &&& bsMask (0#4 ||| 8#4 >>> k.toNat) = 0#32) ↔
    z.toNat / 2 ^ (24 - 8 * k.toNat) % 256 = 0 := by
  have h := (cli_bits z 0 k).1
  have h4 : ∀ k : BitVec 2, k = 0 ∨ k = 1 ∨ k = 2 ∨ k = 3 := by decide
  have h2 : (byteOf z k).toNat = z.toNat / 2 ^ (24 - 8 * k.toNat) % 256 := by
    rw [byteOf_eq, BitVec.extractLsb'_toNat, Nat.shiftRight_eq_div_pow]
  rw [h, ← h2]
  constructor
  · intro h3
    have h5 := congrArg BitVec.toNat h3
    have h6 := (byteOf z k).isLt
    rw [BitVec.toNat_shiftLeft, BitVec.toNat_setWidth, Nat.shiftLeft_eq] at h5
    generalize (byteOf z k).toNat = y at *
    rcases h4 k with rfl | rfl | rfl | rfl <;> simp at h5 <;> omega
  · intro h3
    rw [show byteOf z k = 0#8 from BitVec.eq_of_toNat_eq h3]; simp

/-- CLI: the condition code. -/
theorem cli_cc (l : W) (b : B) (k : BitVec 2) :
    (if (l &&& bsMask (0#4 ||| 8#4 >>> k.toNat)) + putByte 4294967295#32 k (b ^^^ 255#8) + 1#32 &&&
        bsMask (0#4 ||| 8#4 >>> k.toNat) = 0#32 then 0#2
      else if BitVec.msb (carriesOf (l &&& bsMask (0#4 ||| 8#4 >>> k.toNat))
        (putByte 4294967295#32 k (b ^^^ 255#8))
        ((l &&& bsMask (0#4 ||| 8#4 >>> k.toNat)) + putByte 4294967295#32 k (b ^^^ 255#8) + 1#32)) = true
      then 2#2 else 1#2) = ccCmp (byteOf l k).toNat b.toNat := by
  simp only [mask_zero]
  rw [(cli_bits l b k).1, (cli_bits l b k).2, carry_out _ _ 1#32 (by decide)]
  generalize byteOf l k = p
  have hp := p.isLt
  have hb := b.isLt
  simp only [BitVec.toNat_add, BitVec.toNat_not, BitVec.toNat_shiftLeft, BitVec.toNat_setWidth,
    Nat.shiftLeft_eq, ccCmp, Nat.cast_inj, Nat.cast_lt, decide_eq_true_eq]
  have h4 : ∀ k : BitVec 2, k = 0 ∨ k = 1 ∨ k = 2 ∨ k = 3 := by decide
  rcases h4 k with rfl | rfl | rfl | rfl <;>
  · simp only [BitVec.reduceToNat, BitVec.ofNat_eq_ofNat]
    repeat' split
    all_goals first | rfl | (exfalso; omega)

/-- CLI. -/
theorem cli_exec {e : Env} {tk : Bool} {a : Arch} {i : BitVec 16} {x : W} {s : S} (ho : EnvOk e)
    (h : Op9 e tk a i x s) (hop : (opOf i).toNat = 0x95) (hx : x.toNat < 4 * words e)
    (hi : InStore e a) :
    Ev e tk (Bd e tk (a.setCC (ccCmp (a.byte x.toNat).toNat (immOf i).toNat))) s := by
  have hro := h.roar
  rw [hop] at hro
  refine Ev.wait (n := 0x916) ho h.ae.calm hro (by rw [w916]; decide) (by rw [w916]; decide)
    (fun tu sa ex => x916 e _ _) fun tu sa ex hex hc2 => ?_
  refine Ev.bind (P := fun s' => Req e tk a i x s' ∧ s'.BS = 0#4 ∧ s'.MB = s.R.setWidth 2 ∧
    s'.LB = 1#2 ∧ s'.M = s.M ∧ s'.ROAR = 0x930) (.now ?_) ?_
  · exact ⟨Req.mk' (i := i) ho h.ae h.fn h.md hx rfl rfl rfl rfl hc2.qt rfl rfl rfl rfl rfl rfl rfl h.r,
      rfl, rfl, h.lb, rfl, rfl⟩
  rintro s2 ⟨hq, bs2, mb2, lb2, m2, ro2⟩
  refine Ev.acc (n := 0x930) ho hq.ask ro2 (by rw [w930]; decide) (fun t => x930 e _ _)
    fun t ht hc => ?_
  have hae := hq.acc hc
  have hsd := sdr_acc ho hq.ask t
  rw [hq.sar] at hsd
  have himm : byteOf (acc t s2).M (acc t s2).LB = immOf i := by
    show byteOf s2.M s2.LB = _
    rw [m2, lb2, byte_imm h.m]
  refine Ev.wait (n := 0x934) ho (hc.congr (by unfold memPart; rfl)) rfl (by rw [w934]; decide)
    (by rw [w934]; decide) (fun tu sa ex => x934 e _ _) fun tu3 sa3 ex3 hex3 hc3 => ?_
  refine Ev.bind (P := fun s' => AtEnd e tk a s' ∧ s'.L = a.mem (x.toNat / 4) ∧
    s'.M = putByte 4294967295#32 (s.R.setWidth 2) (immOf i ^^^ 255#8) ∧
    s'.BS = 0#4 ||| 8#4 >>> (s.R.setWidth 2).toNat ∧ s'.ROAR = 0x938) (.now ?_) ?_
  · refine ⟨hae.updF (hc3.congr (by unfold memPart; rfl)) hq.arch rfl rfl (and15_lt _) rfl rfl rfl rfl,
      ?_, ?_, ?_, rfl⟩
    · exact hsd.trans (by rw [← hq.arch]; rfl)
    · show putByte 4294967295#32 s2.MB _ = _
      rw [mb2]
      refine congrArg _ ?_
      refine (mvf_xor _ _).trans ?_
      refine congrArg₂ _ ?_ ?_
      · refine (md_imm _).trans himm
      · show byteOf 4294967295#32 s2.MB = _
        generalize s2.MB = k
        revert k; decide
    · show s2.BS ||| 8#4 >>> s2.MB.toNat = _
      rw [bs2, mb2]
  rintro s4 ⟨ae4, l4, m4, bs4, ro4⟩
  refine Ev.plain (n := 0x938) ho ae4.calm ro4 (by rw [w938]; decide)
    (fun t => x938 e _ _) (fun t => by unfold memPart; rfl) fun t5 ht5 hc5 => ?_
  refine end_a (n := 0x197) ho (ae4.upd hc5 (a' := a.setCC _) ?_ rfl rfl rfl rfl rfl rfl rfl)
    (hi.same rfl) rfl (by rw [w197, w144])
  have hcc := cli_cc (a.mem (x.toNat / 4)) (immOf i) (s.R.setWidth 2)
  rw [show byteOf (a.mem (x.toNat / 4)) (s.R.setWidth 2) = a.byte x.toNat by
    rw [byteOf_eq, low2 h.r]; rfl, ← l4, ← m4, ← bs4] at hcc
  rw [← hcc]
  rw [← ae4.arch]; rfl

/-- TM. -/
theorem tm_exec {e : Env} {tk : Bool} {a : Arch} {i : BitVec 16} {x : W} {s : S} (ho : EnvOk e)
    (h : Op9 e tk a i x s) (hop : (opOf i).toNat = 0x91) (hx : x.toNat < 4 * words e)
    (hi : InStore e a) :
    Ev e tk (Bd e tk (a.setCC (ccTest (a.byte x.toNat) (immOf i)))) s := by
  have hro := h.roar
  rw [hop] at hro
  have himm : byteOf s.M s.LB = immOf i := by rw [h.lb, byte_imm h.m]
  have hmd : BitVec.setWidth 4 (byteOf s.M s.LB >>> 4) = dig1 i := by
    rw [himm]
    apply BitVec.eq_of_getLsbD_eq; intro j hj
    interval_cases j <;> simp [immOf, dig1]
  refine Ev.wait (n := 0x906) ho h.ae.calm hro (by rw [w906]; decide) (by rw [w906]; decide)
    (fun tu sa ex => x906 e _ _) fun tu sa ex hex hc2 => ?_
  refine Ev.bind (P := fun s' => Req e tk a i x s' ∧ s'.R = s.R ∧ s'.mvf = 2#3 ∧
    s'.MD.setWidth 8 <<< 4 ||| s'.F = immOf i ∧ s'.ROAR = 0x93c) (.now ?_) ?_
  · refine ⟨⟨⟨rfl, h.ae.calm.ib, rfl, ?_, ?_, hc2.qt⟩, h.ae.calm.ud, h.ae.arch, and15_lt _, h.ae.odd,
      h.fn, hmd, h.r⟩, rfl, rfl, ?_, rfl⟩
    · have := ho.top
      show (s.R &&& 16777215#32).toNat ≤ _
      rw [h.r]; omega
    · intro h1
      have h2 : s.updD = true := h1
      rw [h.ae.calm.ud] at h2; cases h2
    · refine (md_imm _).trans himm
  rintro s2 ⟨hq, r2, mvf2, mf2, ro2⟩
  refine Ev.accWait (n := 0x93c) ho hq.ask ro2 (by rw [w93c]; decide) fun t ht hc => ?_
  have hae := hq.acc hc
  have hsd := sdr_acc ho hq.ask t
  rw [hq.sar] at hsd
  refine Ev.wait (n := 0x93c) ho hc ro2 (by rw [w93c]; decide) (by rw [w93c]; decide)
    (fun tu sa ex => x93c e _ _) fun tu3 sa3 ex3 hex3 hc3 => ?_
  refine Ev.bind (P := fun s' => AtEnd e tk a s' ∧ s'.M = a.mem (x.toNat / 4) ∧ s'.L = s'.LS 30 ∧
    s'.MB = s.R.setWidth 2 ∧ s'.mvf = 2#3 ∧ s'.MD.setWidth 8 <<< 4 ||| s'.F = immOf i ∧
    s'.ROAR = 0x941) (.now ?_) ?_
  · refine ⟨hae.upd (hc3.congr (by unfold memPart; rfl)) hq.arch rfl rfl rfl rfl rfl rfl rfl,
      ?_, rfl, ?_, mvf2, mf2, rfl⟩
    · exact hsd.trans (by rw [← hq.arch]; rfl)
    · show s2.R.setWidth 2 = _
      rw [r2]
  rintro s4 ⟨ae4, m4, l4, mb4, mvf4, mf4, ro4⟩
  have hb : byteOf s4.M s4.MB = a.byte x.toNat := by
    rw [m4, mb4, byteOf_eq, low2 h.r]; rfl
  have hw5 : mvfL s4.mvf (BitVec.setWidth 8 s4.MD <<< 4 ||| s4.F) (byteOf s4.M s4.MB) |||
      mvfR s4.mvf (BitVec.setWidth 8 s4.MD <<< 4 ||| s4.F) (byteOf s4.M s4.MB) =
      a.byte x.toNat &&& immOf i := by
    rw [mvf4, mf4, hb, mvf_and, BitVec.and_comm]
  refine Ev.plain (n := 0x941) ho ae4.calm ro4 (by rw [w941]; decide)
    (fun t => x941 e _ _) (fun t => by unfold memPart; rfl) fun t5 ht5 hc5 => ?_
  refine Ev.bind (P := fun s' => AtEnd e tk a s' ∧ byteOf s'.M s'.MB = a.byte x.toNat &&& immOf i ∧
    s'.w = a.byte x.toNat &&& immOf i ∧ s'.L = s'.LS 30 ∧ s'.mvf = 3#3 ∧
    s'.MD.setWidth 8 <<< 4 ||| s'.F = immOf i ∧ s'.ROAR = 0x948) (.now ?_) ?_
  · refine ⟨ae4.upd hc5 ae4.arch rfl rfl rfl rfl rfl rfl rfl, ?_, hw5, l4, rfl, mf4, rfl⟩
    have hp : ∀ (m : W) (k : BitVec 2) (b : B), byteOf (putByte m k b) k = b := by
      intro m k b
      have h4 : ∀ k : BitVec 2, k = 0 ∨ k = 1 ∨ k = 2 ∨ k = 3 := by decide
      rcases h4 k with rfl | rfl | rfl | rfl <;>
      · apply BitVec.eq_of_getLsbD_eq; intro i hi
        interval_cases i <;> simp [byteOf, putByte]
    exact (hp _ _ _).trans hw5
  rintro s6 ⟨ae6, b6, w6, l6, mvf6, mf6, ro6⟩
  have hw7 : mvfL s6.mvf (BitVec.setWidth 8 s6.MD <<< 4 ||| s6.F) (byteOf s6.M s6.MB) |||
      mvfR s6.mvf (BitVec.setWidth 8 s6.MD <<< 4 ||| s6.F) (byteOf s6.M s6.MB) =
      immOf i ^^^ (a.byte x.toNat &&& immOf i) := by
    rw [mvf6, mf6, b6, mvf_xor]
  refine Ev.plain (n := 0x948) ho ae6.calm ro6 (by rw [w948]; decide)
    (fun t => x948 e _ _) (fun t => by unfold memPart; rfl) fun t7 ht7 hc7 => ?_
  refine Ev.bind (P := fun s' => AtEnd e tk a s' ∧ s'.L = s'.LS 30 ∧
    s'.w = immOf i ^^^ (a.byte x.toNat &&& immOf i) ∧
    s'.ROAR = 2336 ||| 2 * (a.byte x.toNat &&& immOf i == 0#8).toNat + 1) (.now ?_) ?_
  · refine ⟨ae6.upd hc7 ae6.arch rfl rfl rfl rfl rfl rfl rfl, l6, hw7, ?_⟩
    show 2336 ||| 2 * (s6.w == 0#8).toNat + 1 = _
    rw [w6]
  rintro s8 ⟨ae8, l8, w8, ro8⟩
  have fin : ∀ (s : S) (n : Nat) (c : BitVec 2), AtEnd e tk a s → s.L = s.LS 30 → s.ROAR = n →
      usesStore (Cpu50.ros n) = true → ((Cpu50.ros n).tr == 29) = false →
      (∀ ex (s : S), exec e (Cpu50.ros n) ex s = .ok { s with
        SAR := ifAddr s.REFETCH s.IA, alu := 0#32, aob := 0#32, u := 0#8, w := 0#8, EDST := 3#2,
        CC := c, LSA := s.FN ++ s.J, IVA := s.IVA || decide (e.memMax < ifAddr s.REFETCH s.IA),
        initMem := s.initMem || !decide (e.memMax < ifAddr s.REFETCH s.IA),
        ROAR := 328 ||| 2 * (ex || s.IA &&& 2#32 == 0#32).toNat +
          (ex || s.IA &&& 2#32 != 0#32 && s.REFETCH).toNat }) →
      Ev e tk (Bd e tk (a.setCC c)) s := by
    intro s n c ae hl hro hu h29 hx
    refine Ev.wait ho ae.calm hro (by rw [hu, Bool.or_true]) h29 (fun tu sa ex => hx _ _)
      fun tu sa ex hex hc => .now ?_
    refine end_c ho ae hi hex hc.qt rfl ?_ rfl rfl hl rfl rfl rfl rfl rfl rfl rfl
    rw [← ae.arch]; rfl
  unfold ccTest
  by_cases h0 : a.byte x.toNat &&& immOf i = 0
  · rw [if_pos h0]
    rw [h0] at ro8
    exact fin s8 0x923 0 ae8 l8 ro8 (by rw [w923]; rfl) (by rw [w923]; rfl) fun ex s => x923 e ex s
  rw [if_neg h0]
  rw [show (a.byte x.toNat &&& immOf i == 0#8) = false by simpa using h0] at ro8
  refine Ev.plain (n := 0x921) ho ae8.calm ro8 (by rw [w921]; decide)
    (fun t => x921 e _ _) (fun t => by unfold memPart; rfl) fun t9 ht9 hc9 => ?_
  refine Ev.bind (P := fun s' => AtEnd e tk a s' ∧ s'.L = s'.LS 30 ∧
    s'.ROAR = 2340 ||| 2 * (immOf i ^^^ (a.byte x.toNat &&& immOf i) == 0#8).toNat + 1) (.now ?_) ?_
  · refine ⟨ae8.upd hc9 ae8.arch rfl rfl rfl rfl rfl rfl rfl, l8, ?_⟩
    show 2340 ||| 2 * (s8.w == 0#8).toNat + 1 = _
    rw [w8]
  rintro s10 ⟨ae10, l10, ro10⟩
  have hxor : (immOf i ^^^ (a.byte x.toNat &&& immOf i) == 0#8) =
      decide (a.byte x.toNat &&& immOf i = immOf i) := by
    rw [Bool.eq_iff_iff, beq_iff_eq, decide_eq_true_eq, BitVec.xor_eq_zero_iff, eq_comm]
  rw [hxor] at ro10
  by_cases h1 : a.byte x.toNat &&& immOf i = immOf i
  · rw [if_pos h1]
    rw [decide_eq_true h1] at ro10
    exact fin s10 0x927 3 ae10 l10 ro10 (by rw [w927]; rfl) (by rw [w927]; rfl) fun ex s => x927 e ex s
  · rw [if_neg h1]
    rw [decide_eq_false h1] at ro10
    exact fin s10 0x925 1 ae10 l10 ro10 (by rw [w925]; rfl) (by rw [w925]; rfl) fun ex s => x925 e ex s

/-- Every SI instruction of the specification. -/
theorem si_exec {e : Env} {tk : Bool} {a a' : Arch} {i i1 : BitVec 16} {s : S} (ho : EnvOk e)
    (h : FetRX e tk a i i1 s)
    (hv : si (4 * words e) a (opOf i) (immOf i)
      (ea a 0 (i1.extractLsb' 12 4) (i1.extractLsb' 0 12)) = some a')
    (hi : InStore e a') : Ev e tk (Bd e tk a') s := by
  have h9 := to_op9 ho h
  generalize ea a 0 (i1.extractLsb' 12 4) (i1.extractLsb' 0 12) = x at *
  unfold si at hv
  split at hv
  · rename_i hw
    have hx : x.toNat < 4 * words e := by
      simp only [Arch.within, Bool.and_eq_true, beq_iff_eq, decide_eq_true_eq] at hw
      omega
    split at hv <;> rename_i heq
    · obtain rfl := Option.some.inj hv
      exact Ev.bind (h9 (by rw [heq])) fun s' h' => tm_exec ho h' heq hx (hi.same rfl)
    · split at hv
      · rename_i hk
        obtain rfl := Option.some.inj hv
        exact Ev.bind (h9 (by rw [heq])) fun s' h' => mvi_exec ho h' heq hx hk (hi.same rfl)
      · exact nomatch hv
    · split at hv
      · rename_i hk
        obtain rfl := Option.some.inj hv
        exact Ev.bind (h9 (by rw [heq])) fun s' h' => logic_exec (n := 0x912) ho h' (by rw [heq]; rfl)
          (fun ex s => x912 e ex s) (by rw [w912]; decide) (by rw [w912]; decide) hx hk (hi.same rfl)
          (mvf_and _ _)
      · exact nomatch hv
    · obtain rfl := Option.some.inj hv
      exact Ev.bind (h9 (by rw [heq])) fun s' h' => cli_exec ho h' heq hx (hi.same rfl)
    · split at hv
      · rename_i hk
        obtain rfl := Option.some.inj hv
        exact Ev.bind (h9 (by rw [heq])) fun s' h' => logic_exec (n := 0x91a) ho h' (by rw [heq]; rfl)
          (fun ex s => x91a e ex s) (by rw [w91a]; decide) (by rw [w91a]; decide) hx hk (hi.same rfl)
          (mvf_or _ _)
      · exact nomatch hv
    · split at hv
      · rename_i hk
        obtain rfl := Option.some.inj hv
        exact Ev.bind (h9 (by rw [heq])) fun s' h' => logic_exec (n := 0x91e) ho h' (by rw [heq]; rfl)
          (fun ex s => x91e e ex s) (by rw [w91e]; decide) (by rw [w91e]; decide) hx hk (hi.same rfl)
          (mvf_xor _ _)
      · exact nomatch hv
    · exact nomatch hv
  · exact nomatch hv

end Verif.Cpu50
