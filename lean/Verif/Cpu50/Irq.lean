import Verif.Cpu50.Step
import Verif.Cpu50.Words6

/-!
# Model 2050: interruptions

The microprogram stores the old PSW at the address in `R` and loads the new one from the place
64 bytes above (words 19c to 1c6).
-/

namespace Verif.Cpu50
open Verif.S360
attribute [local irreducible] ros

/-! ### Writing back -/

/-- A changed storage data register is written back in the next cycle. -/
structure Back (e : Env) (tk : Bool) (s : S) : Prop where
  im : s.initMem = false
  ib : s.initBump = false
  ud : s.updD = true
  ms : s.ms = .w1
  hb : s.bump = false
  rg : memIx s.SA < words e
  qt : tk = false → exc s = false

/-- The state in which it has been written back. -/
def wrote (tu : Bool) (s : S) : S :=
  { s with timUp := tu, updD := false, mem := memUpd s,
           REFETCH := s.REFETCH || decide (s.SA >>> 2 = s.IA >>> 2), SA := s.SAR &&& 0x3ffff }

/-- One word, in the quarter in which a store is written back. -/
theorem Ev.back {e : Env} {tk : Bool} {P : S → Prop} {s : S} (ho : EnvOk e) (h : Back e tk s)
    {n : Nat} (hr : s.ROAR = n) {f : Bool → Bool → S}
    (hx : ∀ tu ex, exec e (Cpu50.ros n) ex (wrote tu s) = .ok (f tu ex))
    (k : ∀ tu ex, Calm e tk (wrote tu s) → Ev e tk P (f tu ex)) : Ev e tk P s := by
  obtain ⟨im, ib, ud, ms, hb, rg, qt⟩ := h
  have hmc : ∀ w t, memCycle e w (tickStep t s) =
      .ok (false, wrote (s.timUp || (t && !s.man)) s) := by
    intro w t
    simp only [memCycle, tickStep, ms, writeBack, ud, hb, rg, Out.bind, accept, im, ib, wrote]
    rfl
  refine Ev.go (fun t => (cycle_run e t s _ (hmc _ t)).trans (Eq.trans
    (congrArg (fun w => exec e w _ _) (by rw [hr, ho.ros])) (hx _ _))) fun t ht => k _ _ ?_
  exact ⟨im, ib, rfl, by show s.ms ≠ _; rw [ms]; decide,
    fun h => by
      have h : s.ms = _ ∨ s.ms = _ := h
      rw [ms] at h; simp at h,
    fun h => exc_tick qt ht h⟩

/-- One word which waits, from the first quarter. -/
theorem Ev.wait1 {e : Env} {tk : Bool} {P : S → Prop} {s : S} (ho : EnvOk e)
    (hc : Calm e tk s) (hb : s.bump = false) (hm : s.ms = .r1) {n : Nat} (hr : s.ROAR = n)
    (hint : interlocked (Cpu50.ros n).tr = true) (h29 : ((Cpu50.ros n).tr == 29) = false)
    {f : Bool → Bool → S}
    (hx : ∀ tu ex, exec e (Cpu50.ros n) ex
      { s with timUp := tu, SDR := s.mem (memIx s.SA), ms := .w1 } = .ok (f tu ex))
    (k : ∀ tu ex, (tk = false → ex = false) →
      Calm e tk { s with timUp := tu, SDR := s.mem (memIx s.SA), ms := .w1 } →
      Ev e tk P (f tu ex)) : Ev e tk P s := by
  have hwt : (interlocked (e.ros n).tr || usesStore (e.ros n)) = true := by
    rw [ho.ros, hint]; rfl
  refine .step (fun t => Cpu50.bg t s) (fun t _ => ?_) fun t ht => ?_
  · exact cycle_held e t s _ (mem_wait hc _ (by rw [hr]; exact hwt) (.inl hm) t)
  have hc1 := hc.bg t ht
  have hm1 : (Cpu50.bg t s).ms = .r2 := by show bgMs s.ms = _; rw [hm]; rfl
  generalize hs1 : Cpu50.bg t s = s1 at *
  have e1 : s1 = { s with timUp := s1.timUp, ms := .r2 } := by
    rw [← hs1]; simp [Cpu50.bg, hm, bgMs, bgSdr]
  refine .step (fun t => Cpu50.bg t s1) (fun t _ => ?_) fun t2 ht2 => ?_
  · refine cycle_held e t s1 _ (mem_wait hc1 _ ?_ (.inr hm1) t)
    rw [show s1.ROAR = n by rw [e1]; exact hr]; exact hwt
  have hc2 := hc1.bg t2 ht2
  generalize hs2 : Cpu50.bg t2 s1 = s2 at *
  have e2 : s2 = { s with timUp := s2.timUp, SDR := s.mem (memIx s.SA), ms := .r3 } := by
    rw [← hs2, e1]; simp [Cpu50.bg, bgMs, bgSdr, hb]
  have hmc : ∀ t, memCycle e (e.ros n) (tickStep t s2) = .ok (false,
      { s with timUp := s2.timUp || (t && !s.man), SDR := s.mem (memIx s.SA), ms := .w1 }) := by
    intro t
    rw [e2]
    have h3 : ((e.ros n).tr == 29) = false := by rw [ho.ros]; exact h29
    simp [memCycle, tickStep, hc.im, hc.ib, hc.ud, h3]
  refine .step (fun t => f (s2.timUp || (t && !s.man)) (exc (tickStep t s2))) (fun t _ => ?_)
    fun t3 ht3 => ?_
  · have h1 := hmc t
    have hr2 : s2.ROAR = n := by rw [e2]; exact hr
    rw [cycle_run e t s2 _ (by rw [hr2]; exact h1), hr2, ho.ros]
    exact hx _ _
  · refine k _ _ (exc_tick hc2.qt ht3) ⟨hc.im, hc.ib, hc.ud, by simp, by simp, fun h => ?_⟩
    have := exc_tick hc2.qt ht3 h
    rw [← this, e2]; rfl

/-! ### Reasons for an interruption -/

/-- The part of the state which is a reason for an interruption whatever the mask. -/
def reqPart (s : S) : Bool × Bool × Bool × B := (s.man, s.stop, s.intr, s.BCHI)

/-- A mask which allows no more than before gives no new reason for an interruption. -/
theorem exc_mono {s s' : S} (hx : exc s = false) (hq : reqPart s' = reqPart s)
    (ht : s'.timUp = true → s.timUp = true) (hi : s'.timIrq = true → s.timIrq = true)
    (hw : s'.wait = false) (hm : s'.MASK &&& s.MASK = s'.MASK) : exc s' = false := by
  simp only [reqPart, Prod.mk.injEq] at hq
  obtain ⟨h1, h2, h3, h4⟩ := hq
  simp only [exc, Bool.or_eq_false_iff, Bool.and_eq_false_iff, bne_eq_false_iff_eq] at hx ⊢
  obtain ⟨⟨hx1, hx2⟩, hx3⟩ := hx
  refine ⟨⟨h1.trans hx1, hw⟩, ?_⟩
  rcases hx3 with hx3 | ⟨⟨hx3, hx4⟩, hx5⟩
  · exact .inl (by rw [h2]; exact hx3)
  · refine .inr ⟨⟨?_, ?_⟩, ?_⟩
    · cases h : s'.timUp with
      | false => rfl
      | true => rw [ht h] at hx3; exact hx3
    · rcases hx4 with ⟨hx4, hx4'⟩ | hx4
      rotate_left
      · refine .inr ?_
        rw [← hm, BitVec.and_assoc, hx4]; exact BitVec.and_zero
      · refine .inl ⟨h3.trans hx4, ?_⟩
        cases h : s'.timIrq with
        | false => rfl
        | true => rw [hi h] at hx4'; exact hx4'
    · rw [h4, ← hm, BitVec.and_comm s'.MASK, ← BitVec.and_assoc, hx5]; exact BitVec.zero_and

/-- In the course of an interruption. -/
structure Mid (e : Env) (tk : Bool) (a : Arch) (s : S) : Prop where
  calm : Calm e tk s
  arch : archOf s = a

/-! ### The words of the PSW -/

theorem psw1_eq {a : Arch} (h : a.Kept) (c : B) :
    putByte (putByte a.sys 2#2 0#8) 3#2 c = psw1 a (c.setWidth 16) := by
  have h1 : ∀ v : W, putByte (putByte v 2#2 0#8) 3#2 c = v.extractLsb' 16 16 ++ c.setWidth 16 := by
    intro v
    apply BitVec.eq_of_getLsbD_eq; intro i hi
    rw [show (v.extractLsb' 16 16 ++ c.setWidth 16 : W).getLsbD i = _ from BitVec.getLsbD_append]
    interval_cases i <;> simp [putByte]
  rw [h1, h]
  rfl

theorem psw2_eq (h : W) (a : Arch) (ilc : BitVec 2) :
    putByte (h &&& 4278190080#32 ||| a.ia &&& 16777215#32) 0#2
      (BitVec.setWidth 8 ilc <<< 6 ||| BitVec.setWidth 8 a.cc <<< 4 ||| BitVec.setWidth 8 a.pm) =
    link a ilc := by
  unfold link
  apply BitVec.eq_of_getLsbD_eq; intro i hi
  rw [show (ilc ++ a.cc ++ a.pm ++ a.ia.extractLsb' 0 24 : W).getLsbD i = _ from
    BitVec.getLsbD_append]
  simp only [BitVec.getLsbD_append]
  interval_cases i <;> simp [putByte]

theorem gr_put23 (ls : BitVec 6 → W) (v : W) :
    (fun i : BitVec 4 => lsPut ls 23#6 v (3#2 ++ i)) = fun i => ls (3#2 ++ i) := by
  have h : ∀ i : BitVec 4, ¬ (3#2 ++ i : BitVec 6) = 23#6 := by decide
  funext i
  simp only [lsPut]; exact if_neg (h i)

theorem fr_put23 (ls : BitVec 6 → W) (v : W) :
    (fun i : BitVec 4 => lsPut ls 23#6 v (2#2 ++ i)) = fun i => ls (2#2 ++ i) := by
  have h : ∀ i : BitVec 4, ¬ (2#2 ++ i : BitVec 6) = 23#6 := by decide
  funext i
  simp only [lsPut]; exact if_neg (h i)

/-- The copy of the left half of the PSW. -/
theorem arch_put23 {a : Arch} {s s' : S} {v : W} (h : archOf s = a)
    (ls : s'.LS = lsPut s.LS 23#6 v) (cc : s'.CC = s.CC) (pm : s'.PMASK = s.PMASK)
    (ia : s'.IA = s.IA) (mem : s'.mem = s.mem) (mp : s'.MP = s.MP) (key : s'.KEY = s.KEY)
    (am : s'.AMWP = v.extractLsb' 16 4) (mk : s'.MASK = s.MASK) :
    archOf s' = { a with sys := v, amwp := v.extractLsb' 16 4 } := by
  subst h
  simp only [archOf, ls, cc, pm, ia, mem, mp, key, am, mk, gr_put23, fr_put23]
  rfl

theorem amwp_of (v : W) : (v >>> 16).setWidth 4 = v.extractLsb' 16 4 := rfl

theorem mask_of (v : W) : byteOf v 0#2 = v.extractLsb' 24 8 := rfl

theorem key_of (v : W) : (v >>> 20).setWidth 4 = v.extractLsb' 20 4 := rfl

theorem cc_of (v : W) : (byteOf v 0#2 >>> 4).setWidth 2 = v.extractLsb' 28 2 := by
  apply BitVec.eq_of_getLsbD_eq; intro i hi
  interval_cases i <;> simp [byteOf]

theorem pm_of (v : W) : (byteOf v 0#2).setWidth 4 = v.extractLsb' 24 4 := by
  apply BitVec.eq_of_getLsbD_eq; intro i hi
  interval_cases i <;> simp [byteOf]

theorem and24s (p : W) (h : p.toNat < 0x40000) : p &&& 16777215#32 = p := by
  apply BitVec.eq_of_toNat_eq
  rw [BitVec.toNat_and]
  exact (Nat.and_two_pow_sub_one_eq_mod p.toNat 24).trans (Nat.mod_eq_of_lt (by omega))

/-- What is asked for in the way of external interruptions: no request of the timer unless
`i`, the interrupt key if `j`. -/
def ExtReq (i j : Bool) (s : S) : Prop := (s.timIrq = true → i = true) ∧ s.intr = j

theorem br_tailq {e : Env} {tk i j : Bool} {a : Arch} {s : S} (ho : EnvOk e)
    (h : Calm e tk s) (ha : archOf s = a) (hf : s.F.toNat < 16) (hi : InStore e (a.jump s.L))
    (q : ExtReq i j s) (hr : s.ROAR = 0x1c6) :
    Ev e tk (fun s' => Bd e tk (a.jump s.L) s' ∧ ExtReq i j s') s := by
  refine Ev.wait ho h hr (by rw [w1c6]; decide) (by rw [w1c6]; decide)
    (fun tu sa ex => x1c6 e _ _) fun tu sa ex hex hc => .now ⟨?_, q⟩
  exact branch_end ho h hf hi hex hc.qt rfl ha rfl rfl rfl rfl rfl rfl rfl rfl

/-! ### Loading the PSW -/

theorem add4_24 {r p : W} (h : r &&& 16777215#32 = p) (hp : p.toNat + 4 < 2 ^ 24) :
    4#32 + r &&& 16777215#32 = 4#32 + p := by
  apply BitVec.eq_of_toNat_eq
  have h1 : ∀ x : W, (x &&& 16777215#32).toNat = x.toNat % 2 ^ 24 := fun x => by
    rw [BitVec.toNat_and]; exact Nat.and_two_pow_sub_one_eq_mod x.toNat 24
  have h2 := h1 r
  rw [h] at h2
  rw [h1, BitVec.toNat_add, BitVec.toNat_add]
  show (4 + r.toNat) % 2 ^ 32 % 2 ^ 24 = (4 + p.toNat) % 2 ^ 32
  omega

/-- Words 751 to 1c6: the PSW at the address `p` in `R` is loaded. -/
theorem load_execq {e : Env} {tk i j : Bool} {a b : Arch} {p : W} {s : S} (ho : EnvOk e)
    (ask : Asks e tk s) (ha : archOf s = a)
    (hsar : s.SAR = p) (hR : s.R &&& 16777215#32 = p) (hp : p.toNat + 8 ≤ 4 * words e) (hf : s.F.toNat < 16)
    (hb : b = loadPsw a (a.mem (p.toNat / 4)) (a.mem ((p.toNat + 4) / 4)))
    (hw : tk = false → b.amwp &&& 2 = 0 ∧ b.mask &&& a.mask = b.mask) (hi : InStore e b) (q0 : ExtReq i j s)
    (hr : s.ROAR = 0x751) : Ev e tk (fun s' => Bd e tk b s' ∧ ExtReq i j s') s := by
  have hlim := ho.lim
  have htop := ho.top
  have hs1 : ∀ t, sdrAt (acc t s) = a.mem (p.toNat / 4) := fun t => by
    rw [sdr_acc ho ask, hsar, ← ha]; rfl
  have hba : b.amwp = (a.mem (p.toNat / 4)).extractLsb' 16 4 := by rw [hb]; rfl
  have hbm : b.mask = (a.mem (p.toNat / 4)).extractLsb' 24 8 := by rw [hb]; rfl
  generalize hv : a.mem (p.toNat / 4) = v at *
  generalize hu : a.mem ((p.toNat + 4) / 4) = u at *
  refine Ev.accWait (n := 0x751) ho ask hr (by rw [w751]; decide) fun t ht hc => ?_
  refine Ev.wait (n := 0x751) ho hc hr (by rw [w751]; decide) (by rw [w751]; decide)
    (fun tu sa ex => x751 e _ _) fun tu sa ex hex hc2 => ?_
  refine Ev.bind (P := fun s' => ExtReq i j s' ∧ Mid e tk { a with sys := v, amwp := v.extractLsb' 16 4 } s' ∧
    s'.R &&& 16777215#32 = p ∧ s'.L = v ∧ s'.LB = 0#2 ∧ s'.F.toNat < 16 ∧ s'.LS 23#6 = v ∧ (tk = false → s'.wait = false) ∧
    s'.ROAR = 0x731) (.now ?_) ?_
  · have hwt : tk = false → ((sdrAt (acc t s) >>> 16).setWidth 4 &&& 2#4 != 0#4) = false := by
      intro h1
      rw [hs1, amwp_of, ← hba]
      exact (congrArg (· != 0#4) (hw h1).1).trans rfl
    refine ⟨q0, ⟨?_, ?_⟩, hR, hs1 t, rfl, hf, ?_, hwt, rfl⟩
    · refine ⟨hc2.im, hc2.ib, hc2.ud, by simp, by simp, fun h => ?_⟩
      exact exc_mono (s := { acc t s with timUp := tu, SDR := sdrAt (acc t s), SA := sa, ms := .w1 })
        (hc2.qt h) rfl id id (hwt h) (BitVec.and_self)
    · rw [← hs1 t]
      exact arch_put23 (s := acc t s) (s' := { acc t s with
        timUp := tu, SDR := sdrAt (acc t s), SA := sa, ms := .w1,
        L := sdrAt (acc t s), alu := 0#32, aob := sdrAt (acc t s), u := 0#8, w := 0#8,
        AMWP := BitVec.setWidth 4 (sdrAt (acc t s) >>> 16), LB := 0#2,
        EDST := 3#2, LSA := 23#6, ROAR := 0x731, LS := lsPut (acc t s).LS (23#6) (sdrAt (acc t s)),
        wait := BitVec.setWidth 4 (sdrAt (acc t s) >>> 16) &&& 2#4 != 0#4 })
        ha rfl rfl rfl rfl rfl rfl rfl (amwp_of _) rfl
    · show lsPut s.LS 23#6 (sdrAt (acc t s)) 23#6 = v
      rw [hs1]; exact if_pos rfl
  clear hc2 hc ask hs1 ha hsar hR hf
  rintro s1 ⟨q1, m1, r1, l1, lb1, f1, ls1, wt1, ro1⟩
  have hp4 : (4#32 + p).toNat = p.toNat + 4 := by
    rw [BitVec.toNat_add]; show (4 + p.toNat) % _ = _; omega
  have hp24 : 4#32 + s1.R &&& 16777215#32 = 4#32 + p := add4_24 r1 (by omega)
  refine Ev.wait (n := 0x731) ho m1.calm ro1 (by rw [w731]; decide) (by rw [w731]; decide)
    (fun tu sa ex => x731 e _ _) fun tu sa ex hex hc2 => ?_
  refine Ev.bind (P := fun s' => ExtReq i j s' ∧ Asks e tk s' ∧ s'.updD = false ∧
    archOf s' = { a with sys := v, amwp := v.extractLsb' 16 4, mask := v.extractLsb' 24 8 } ∧
    s'.SAR = 4#32 + p ∧ s'.LB = 0#2 ∧ s'.F.toNat < 16 ∧ s'.LS 23#6 = v ∧
    (tk = false → s'.wait = false) ∧ s'.ROAR = 0x733) (.now ?_) ?_
  · refine ⟨q1, ⟨rfl, hc2.ib, rfl, ?_, ?_, ?_⟩, hc2.ud, ?_, ?_, lb1, f1, ls1, wt1, rfl⟩
    · show (4#32 + s1.R &&& 16777215#32).toNat ≤ _
      rw [hp24, hp4]; omega
    · intro h; rw [show _ = _ from hc2.ud] at h; cases h
    · intro h
      exact exc_mono (s := { s1 with timUp := tu, SDR := sdrAt s1, SA := sa, ms := .w1 })
        (hc2.qt h) rfl id id (wt1 h) (by
          show byteOf s1.L s1.LB &&& s1.MASK = byteOf s1.L s1.LB
          have h2 : s1.MASK = a.mask := congrArg Arch.mask m1.arch
          rw [l1, lb1, mask_of, h2, ← hbm]; exact (hw h).2)
    · have := m1.arch
      show { archOf s1 with mask := byteOf s1.L s1.LB } = _
      rw [this, lb1, l1]; rfl
    · show 4#32 + s1.R &&& 16777215#32 = _
      rw [hp24]
  clear q1 hp24 hc2 m1 r1 l1 lb1 f1 ls1 wt1 ro1 s1
  rintro s1 ⟨q1, ask, ud1, ha, sar1, lb1, f1, ls1, wt1, ro1⟩
  have hs1 : ∀ t, sdrAt (acc t s1) = u := fun t => by
    rw [sdr_acc ho ask, sar1, hp4, ← hu]
    exact congrFun (congrArg Arch.mem ha) _
  refine Ev.accWait (n := 0x733) ho ask ro1 (by rw [w733]; decide) fun t ht hc => ?_
  refine Ev.wait (n := 0x733) ho hc ro1 (by rw [w733]; decide) (by rw [w733]; decide)
    (fun tu sa ex => x733 e _ _) fun tu sa ex hex hc2 => ?_
  refine Ev.bind (P := fun s' => ExtReq i j s' ∧ Mid e tk
      { a with sys := v, amwp := v.extractLsb' 16 4, mask := v.extractLsb' 24 8 } s' ∧
    s'.R = v ∧ s'.L = u ∧ s'.LB = 0#2 ∧ s'.F.toNat < 16 ∧ (tk = false → s'.wait = false) ∧
    s'.ROAR = 0x735) (.now ?_) ?_
  · refine ⟨q1, ⟨hc2.congr (by unfold memPart; rfl), ha⟩, ls1, hs1 t, lb1, f1, wt1, rfl⟩
  clear hc2 hc ask hs1 ha sar1 lb1 f1 ls1 ro1 ud1 wt1
  rintro s2 ⟨q1, m1, r1, l1, lb1, f1, wt1, ro1⟩
  refine Ev.wait (n := 0x735) ho m1.calm ro1 (by rw [w735]; decide) (by rw [w735]; decide)
    (fun tu sa ex => x735 e _ _) fun tu sa ex hex hc => ?_
  refine Ev.bind (P := fun s' => ExtReq i j s' ∧ Calm e tk s' ∧ archOf s' = { b with ia := a.ia } ∧ s'.L = u ∧
    s'.F.toNat < 16 ∧ s'.ROAR = 0x1c6) (.now ?_) ?_
  · refine ⟨⟨?_, q1.2⟩, ⟨hc.im, hc.ib, hc.ud, hc.nz, hc.rg, fun h => ?_⟩, ?_, l1, f1, rfl⟩
    · show (s2.timIrq && !s2.load) = true → _
      rw [Bool.and_eq_true]; exact fun h => q1.1 h.1
    · refine exc_mono (s := { s2 with timUp := tu, SDR := sdrAt s2, SA := sa, ms := .w1 })
        (hc.qt h) rfl ?_ ?_ (wt1 h) BitVec.and_self
      · show (tu && !s2.load) = true → _
        rw [Bool.and_eq_true]; exact And.left
      · show (s2.timIrq && !s2.load) = true → _
        rw [Bool.and_eq_true]; exact And.left
    · show ({ archOf s2 with
        key := (s2.R >>> 20).setWidth 4, pm := (byteOf s2.L s2.LB).setWidth 4,
        cc := (byteOf s2.L s2.LB >>> 4).setWidth 2 } : Arch) = _
      rw [m1.arch, r1, l1, lb1, hb, key_of, cc_of, pm_of]; rfl
  clear hc m1 r1 l1 lb1 f1 ro1
  rintro s3 ⟨q1, hc, ha, l3, f3, ro3⟩
  have hj : ({ b with ia := a.ia } : Arch).jump s3.L = b := by rw [hb, l3]; rfl
  rw [← hj]
  exact br_tailq ho hc ha f3 (by rw [hj]; exact hi) q1 ro3

/-- Words 751 to 1c6: the PSW at the address `p` in `R` is loaded. -/
theorem load_exec {e : Env} {tk : Bool} {a b : Arch} {p : W} {s : S} (ho : EnvOk e)
    (ask : Asks e tk s) (ha : archOf s = a)
    (hsar : s.SAR = p) (hR : s.R &&& 16777215#32 = p) (hp : p.toNat + 8 ≤ 4 * words e) (hf : s.F.toNat < 16)
    (hb : b = loadPsw a (a.mem (p.toNat / 4)) (a.mem ((p.toNat + 4) / 4)))
    (hw : tk = false → b.amwp &&& 2 = 0 ∧ b.mask &&& a.mask = b.mask) (hi : InStore e b) (hr : s.ROAR = 0x751) :
    Ev e tk (Bd e tk b) s :=
  (load_execq (i := s.timIrq) (j := s.intr) ho ask ha hsar hR hp hf hb hw hi ⟨id, rfl⟩ hr).bind
    fun _ h => .now h.1

/-! ### Exchanging the PSWs -/

/-- Before word 19c: the address for the old PSW is in `R`, the interruption code in `MD` and
`F`. -/
structure Swap (e : Env) (tk : Bool) (a : Arch) (p : W) (c : B) (ilc : BitVec 2) (s : S) :
    Prop where
  calm : Calm e tk s
  arch : { archOf s with key := 0 } = { a with key := 0 }
  r : s.R = p
  code : s.MD.setWidth 8 <<< 4 ||| s.F = c
  il : s.ILC = ilc
  roar : s.ROAR = 0x19c

/-- Words 19c to 1c6. -/
theorem swap_execq {e : Env} {tk i j : Bool} {a b : Arch} {p : W} {c : B} {ilc : BitVec 2} {s : S}
    (ho : EnvOk e) (h : Swap e tk a p c ilc s) (hk : a.Kept) (hp : p.toNat + 72 ≤ 4 * words e)
    (hp4 : p.toNat % 4 = 0)
    (hb : b = interrupt a p.toNat (c.setWidth 16) ilc) (hw : tk = false → b.amwp &&& 2 = 0 ∧ b.mask &&& a.mask = b.mask)
    (hi : InStore e b) (q0 : ExtReq i j s) : Ev e tk (fun s' => Bd e tk b s' ∧ ExtReq i j s') s := by
  have hlim := ho.lim
  have htop := ho.top
  have hpn : p &&& 16777215#32 = p := and24s _ (by omega)
  have hpa : (4#32 + p).toNat = p.toNat + 4 := by
    rw [BitVec.toNat_add]; show (4 + p.toNat) % _ = _; omega
  have hpan : 4#32 + p &&& 16777215#32 = 4#32 + p := and24s _ (by omega)
  have hpb : (64#32 + p).toNat = p.toNat + 64 := by
    rw [BitVec.toNat_add]; show (64 + p.toNat) % _ = _; omega
  have hpbn : 64#32 + p &&& 16777215#32 = 64#32 + p := and24s _ (by omega)
  -- 19c
  refine Ev.wait (n := 0x19c) ho h.calm h.roar (by rw [w19c]; decide) (by rw [w19c]; decide)
    (fun tu sa ex => x19c e _ _) fun tu sa ex hex hc => ?_
  refine Ev.bind (P := fun s' => ExtReq i j s' ∧ Mid e tk { a with key := 0 } s' ∧ s'.L = a.sys ∧ s'.MB = 3#2 ∧
    s'.R = p ∧ s'.MD.setWidth 8 <<< 4 ||| s'.F = c ∧ s'.ILC = ilc ∧ s'.ROAR = 0x1b0) (.now ?_) ?_
  · refine ⟨q0, ⟨hc.congr (by unfold memPart; rfl), ?_⟩, ?_, rfl, h.r, h.code, h.il, rfl⟩
    · exact h.arch
    · exact congrArg Arch.sys h.arch
  clear hc h
  rintro s1 ⟨q1, m1, l1, mb1, r1, c1, il1, ro1⟩
  -- 1b0
  refine Ev.plain (n := 0x1b0) ho m1.calm ro1 (by rw [w1b0]; decide) (fun t => x1b0 e _ _)
    (fun t => by unfold memPart; rfl) fun t ht hc => ?_
  refine Ev.bind (P := fun s' => ExtReq i j s' ∧ Mid e tk { a with key := 0 } s' ∧ s'.M = a.sys ∧ s'.MB = 2#2 ∧
    s'.R = p ∧ s'.MD.setWidth 8 <<< 4 ||| s'.F = c ∧ s'.ILC = ilc ∧ s'.ROAR = 0x1b4) (.now ?_) ?_
  · refine ⟨q1, ⟨hc, m1.arch⟩, l1, ?_, r1, c1, il1, rfl⟩
    show s1.MB - 1#2 = _
    rw [mb1]; rfl
  clear q1 hc m1 l1 mb1 r1 c1 il1 ro1 s1
  rintro s1 ⟨q1, m1, mm1, mb1, r1, c1, il1, ro1⟩
  -- 1b4
  refine Ev.wait (n := 0x1b4) ho m1.calm ro1 (by rw [w1b4]; decide) (by rw [w1b4]; decide)
    (fun tu sa ex => x1b4 e _ _) fun tu sa ex hex hc => ?_
  refine Ev.bind (P := fun s' => ExtReq i j s' ∧ Asks e tk s' ∧ archOf s' = { a with key := 0 } ∧
    s'.updD = false ∧ s'.M = putByte a.sys 2#2 0#8 ∧
    s'.MB = 3#2 ∧ s'.R = p ∧ s'.SAR = p ∧
    s'.MD.setWidth 8 <<< 4 ||| s'.F = c ∧ s'.ILC = ilc ∧ s'.ROAR = 0x1b8) (.now ?_) ?_
  · refine ⟨q1, ⟨rfl, hc.ib, rfl, ?_, ?_, hc.qt⟩, m1.arch, hc.ud, ?_, rfl,
      r1, ?_, c1, il1, rfl⟩
    · show (s1.R &&& 16777215#32).toNat ≤ _
      rw [r1, hpn]; omega
    · intro h; rw [show _ = _ from hc.ud] at h; cases h
    · show putByte s1.M s1.MB 0#8 = _
      rw [mm1, mb1]
    · show s1.R &&& 16777215#32 = _
      rw [r1, hpn]
  clear q1 hc m1 mm1 mb1 r1 c1 il1 ro1 s1
  rintro s1 ⟨q1, ask, ar1, ud1, mm1, mb1, r1, sar1, c1, il1, ro1⟩
  -- 1b8
  refine Ev.acc (n := 0x1b8) ho ask ro1 (by rw [w1b8]; decide) (fun t => x1b8 e _ _)
    fun t ht hc => ?_
  refine Ev.bind (P := fun s' => ExtReq i j s' ∧ Mid e tk { a with key := 0 } s' ∧
    s'.M = psw1 a (c.setWidth 16) ∧ s'.ms = .r1 ∧ s'.bump = false ∧ memIx s'.SA = p.toNat / 4 ∧
    s'.L = 4#32 + p ∧ s'.LS 17#6 = p ∧ s'.ILC = ilc ∧ s'.ROAR = 0x1b1) (.now ?_) ?_
  · refine ⟨q1, ⟨hc.congr (by unfold memPart; rfl), arch_put17 (s := acc t s1) ar1 rfl rfl rfl rfl rfl
      rfl rfl rfl rfl⟩, ?_, rfl, rfl, ?_, ?_, ?_, il1, rfl⟩
    · show putByte s1.M s1.MB (s1.MD.setWidth 8 <<< 4 ||| s1.F) = _
      rw [mm1, mb1, c1, psw1_eq hk]
    · show memIx (s1.SAR &&& 0x3ffff) = _
      rw [memIx_and, sar1, Nat.mod_eq_of_lt (by omega)]
    · show 4#32 + s1.R = _
      rw [r1]
    · show lsPut s1.LS 17#6 s1.R 17#6 = p
      rw [r1]; exact if_pos rfl
  clear q1 hc ask ar1 ud1 mm1 mb1 r1 sar1 c1 il1 ro1 s1
  rintro s1 ⟨q1, m1, mm1, ms1, bu1, sa1, l1, ls1, il1, ro1⟩
  -- 1b1
  have hkey : s1.KEY = 0#4 := congrArg Arch.key m1.arch
  refine Ev.wait1 (n := 0x1b1) ho m1.calm bu1 ms1 ro1 (by rw [w1b1]; decide) (by rw [w1b1]; decide)
    (fun tu ex => x1b1 e _ _ hkey) fun tu ex hex hc => ?_
  refine Ev.bind (P := fun s' => ExtReq i j s' ∧ Back e tk s' ∧ archOf s' = { a with key := 0 } ∧
    s'.SDR = psw1 a (c.setWidth 16) ∧ memIx s'.SA = p.toNat / 4 ∧
    (∃ h, s'.H = h &&& 4278190080#32 ||| a.ia &&& 16777215#32) ∧
    s'.MB = 0#2 ∧ s'.L = 4#32 + p ∧ s'.LS 17#6 = p ∧ s'.ILC = ilc ∧ s'.ROAR = 0x1b3) (.now ?_) ?_
  · refine ⟨q1, ⟨hc.im, hc.ib, rfl, rfl, bu1, ?_, hc.qt⟩, ?_, mm1, sa1,
      ⟨s1.H, ?_⟩, rfl, l1, ls1, il1, rfl⟩
    · show memIx s1.SA < _
      rw [sa1]; omega
    · rw [← m1.arch]
      show ({ archOf s1 with key := 0#4 } : Arch) = _
      rw [m1.arch]; rfl
    · have : s1.IA = a.ia := congrArg Arch.ia m1.arch
      rw [← this]
  clear q1 hc hkey m1 mm1 ms1 bu1 sa1 l1 ls1 il1 ro1 s1
  rintro s1 ⟨q1, bk1, ar1, sd1, sa1, ⟨hh, hh1⟩, mb1, l1, ls1, il1, ro1⟩
  -- 1b3
  refine Ev.back (n := 0x1b3) ho bk1 ro1 (fun tu ex => x1b3 e _ _) fun tu ex hc => ?_
  refine Ev.bind (P := fun s' => ExtReq i j s' ∧ Mid e tk
      { a.store p.toNat (psw1 a (c.setWidth 16)) with key := 0 } s' ∧ s'.ms = .w1 ∧
    s'.M = hh &&& 4278190080#32 ||| a.ia &&& 16777215#32 ∧
    s'.MB = 0#2 ∧ s'.L = 4#32 + p ∧ s'.LS 17#6 = p ∧ s'.ILC = ilc ∧ s'.ROAR = 0x1b5) (.now ?_) ?_
  · refine ⟨q1, ⟨hc.congr (by unfold memPart; rfl), ?_⟩, bk1.ms, hh1, mb1,
      l1, ls1, il1, rfl⟩
    show ({ archOf s1 with mem := memUpd s1 } : Arch) = _
    unfold memUpd
    rw [sa1, sd1, show s1.mem = a.mem from congrArg Arch.mem ar1, ar1]; rfl
  clear q1 hc bk1 ar1 sd1 sa1 hh1 mb1 l1 ls1 il1 ro1 s1
  rintro s1 ⟨q1, m1, ms1, mm1, mb1, l1, ls1, il1, ro1⟩
  generalize ha1 : a.store p.toNat (psw1 a (c.setWidth 16)) = a1 at *
  have hcc : s1.CC = a.cc := (congrArg Arch.cc m1.arch).trans (by rw [← ha1]; rfl)
  have hpm : s1.PMASK = a.pm := (congrArg Arch.pm m1.arch).trans (by rw [← ha1]; rfl)
  -- 1b5
  refine Ev.wait (n := 0x1b5) ho m1.calm ro1 (by rw [w1b5]; decide) (by rw [w1b5]; decide)
    (fun tu sa ex => x1b5 e _ _) fun tu sa ex hex hc => ?_
  refine Ev.bind (P := fun s' => ExtReq i j s' ∧ Asks e tk s' ∧ archOf s' = { a1 with key := 0 } ∧
    s'.M = link a ilc ∧ s'.SAR = 4#32 + p ∧
    s'.LS 17#6 = p ∧ s'.ROAR = 0x1b7) (.now ?_) ?_
  · refine ⟨q1, ⟨rfl, hc.ib, rfl, ?_, ?_, hc.qt⟩, m1.arch, ?_, ?_, ls1, rfl⟩
    · show (s1.L &&& 16777215#32).toNat ≤ _
      rw [l1, hpan]; omega
    · intro h; rw [show _ = _ from hc.ud] at h; cases h
    · show putByte s1.M s1.MB (BitVec.setWidth 8 s1.ILC <<< 6 ||| BitVec.setWidth 8 s1.CC <<< 4 |||
        BitVec.setWidth 8 s1.PMASK) = _
      rw [mm1, mb1, il1, hcc, hpm, psw2_eq]
    · show s1.L &&& 16777215#32 = _
      rw [l1, hpan]
  clear q1 hc hcc hpm m1 ms1 mm1 mb1 l1 ls1 il1 ro1 s1
  rintro s1 ⟨q1, ask, ar1, mm1, sar1, ls1, ro1⟩
  -- 1b7
  refine Ev.acc (n := 0x1b7) ho ask ro1 (by rw [w1b7]; decide) (fun t => x1b7 e _ _)
    fun t ht hc => ?_
  refine Ev.bind (P := fun s' => ExtReq i j s' ∧ Mid e tk { a1 with key := 0 } s' ∧ s'.M = link a ilc ∧
    s'.ms = .r1 ∧ s'.bump = false ∧ memIx s'.SA = (p.toNat + 4) / 4 ∧ s'.L = 64#32 ∧ s'.R = p ∧
    s'.F.toNat < 16 ∧ s'.ROAR = 0x10e) (.now ?_) ?_
  · refine ⟨q1, ⟨hc.congr (by unfold memPart; rfl), ar1⟩, mm1, rfl, rfl, ?_,
      rfl, ls1, (by decide : (hiDig 4#32).toNat < 16), rfl⟩
    show memIx (s1.SAR &&& 0x3ffff) = _
    rw [memIx_and, sar1, hpa, Nat.mod_eq_of_lt (by omega)]
  clear q1 hc ask ar1 mm1 sar1 ls1 ro1 s1
  rintro s1 ⟨q1, m1, mm1, ms1, bu1, sa1, l1, r1, f1, ro1⟩
  -- 10e
  have hkey : s1.KEY = 0#4 := congrArg Arch.key m1.arch
  refine Ev.wait1 (n := 0x10e) ho m1.calm bu1 ms1 ro1 (by rw [w10e]; decide) (by rw [w10e]; decide)
    (fun tu ex => x10e e _ _ hkey) fun tu ex hex hc => ?_
  refine Ev.bind (P := fun s' => ExtReq i j s' ∧ Back e tk s' ∧ archOf s' = { a1 with key := 0 } ∧
    s'.SDR = link a ilc ∧ memIx s'.SA = (p.toNat + 4) / 4 ∧
    s'.L = 64#32 ∧ s'.R = p ∧ s'.F.toNat < 16 ∧ s'.ROAR = 0x10f) (.now ?_) ?_
  · refine ⟨q1, ⟨hc.im, hc.ib, rfl, rfl, bu1, ?_, hc.qt⟩, ?_, mm1, sa1,
      l1, r1, f1, rfl⟩
    · show memIx s1.SA < _
      rw [sa1]; omega
    · rw [← m1.arch]
      show ({ archOf s1 with key := 0#4 } : Arch) = _
      rw [m1.arch]; rfl
  clear q1 hc hkey m1 mm1 ms1 bu1 sa1 l1 r1 f1 ro1 s1
  rintro s1 ⟨q1, bk1, ar1, sd1, sa1, l1, r1, f1, ro1⟩
  -- 10f
  refine Ev.back (n := 0x10f) ho bk1 ro1 (fun tu ex => x10f e _ _) fun tu ex hc => ?_
  refine Ev.bind (P := fun s' => ExtReq i j s' ∧ Asks e tk s' ∧
      archOf s' = { a1.store (p.toNat + 4) (link a ilc) with key := 0 } ∧
    s'.SAR = 64#32 + p ∧ s'.R = 64#32 + p ∧ s'.F.toNat < 16 ∧
    s'.ROAR = 0x751) (.now ?_) ?_
  · refine ⟨q1, ⟨rfl, hc.ib, bk1.ms, ?_, ?_, hc.qt⟩, ?_, ?_, ?_, f1, rfl⟩
    · show (s1.L + s1.R &&& 16777215#32).toNat ≤ _
      rw [l1, r1, hpbn]; omega
    · intro h; cases h
    · show ({ archOf s1 with mem := memUpd s1 } : Arch) = _
      unfold memUpd
      rw [sa1, sd1, show s1.mem = a1.mem from congrArg Arch.mem ar1, ar1]; rfl
    · show s1.L + s1.R &&& 16777215#32 = _
      rw [l1, r1, hpbn]
    · show s1.L + s1.R = _
      rw [l1, r1]
  clear q1 hc bk1 ar1 sd1 sa1 l1 r1 f1 ro1 s1
  rintro s1 ⟨q1, ask, ar1, sar1, r1, f1, ro1⟩
  refine load_execq ho ask ar1 sar1 (by rw [r1]; exact hpbn) (by rw [hpb]; omega) f1 ?_
    (by rw [← ha1]; exact hw) hi q1 ro1
  rw [hb, hpb]
  unfold interrupt
  rw [ha1]
  rfl

/-- Words 19c to 1c6. -/
theorem swap_exec {e : Env} {tk : Bool} {a b : Arch} {p : W} {c : B} {ilc : BitVec 2} {s : S}
    (ho : EnvOk e) (h : Swap e tk a p c ilc s) (hk : a.Kept) (hp : p.toNat + 72 ≤ 4 * words e)
    (hp4 : p.toNat % 4 = 0)
    (hb : b = interrupt a p.toNat (c.setWidth 16) ilc) (hw : tk = false → b.amwp &&& 2 = 0 ∧ b.mask &&& a.mask = b.mask)
    (hi : InStore e b) : Ev e tk (Bd e tk b) s :=
  (swap_execq (i := s.timIrq) (j := s.intr) ho h hk hp hp4 hb hw hi ⟨id, rfl⟩).bind
    fun _ h => .now h.1

end Verif.Cpu50
