import Verif.Cpu50.Step
import Verif.Cpu50.Isa2

/-!
# Model 2050: storage protection

A store which the protection key does not permit changes neither storage nor registers and
leads to microinstruction 142, the program interruption for protection.
-/

namespace Verif.Cpu50
open Verif.S360
attribute [local irreducible] ros

/-- The program interruption for protection begins; nothing has been changed. -/
structure Refused (e : Env) (tk : Bool) (a : Arch) (s : S) : Prop where
  roar : s.ROAR = 0x142
  arch : archOf s = a
  calm : Calm e tk s
  il : s.ILC = 2#2

theorem denied_of {a : Arch} {x : W} {s : S} (h : archOf s = a) (hs : s.SAR = x)
    (hk : a.permits x = false) (hx : x.toNat < 0x40000) : Denied s := by
  have h1 : s.KEY = a.key := by rw [← h]; rfl
  have h2 : s.MP = a.keys := by rw [← h]; rfl
  have h3 : keyIx s = x.toNat / 2048 := by
    unfold keyIx
    rw [BitVec.toNat_ushiftRight, Nat.shiftRight_eq_div_pow, hs]
  simp only [Arch.permits, Bool.or_eq_false_iff, beq_eq_false_iff_ne, ne_eq] at hk
  unfold Denied
  rw [h1, h2, h3]
  exact ⟨hk.1, by omega, fun h => hk.2 h.symm⟩

theorem Denied.congr {s s' : S} (h : Denied s) (h1 : s'.KEY = s.KEY) (h2 : s'.SAR = s.SAR)
    (h3 : s'.MP = s.MP) : Denied s' := by
  unfold Denied keyIx at h ⊢
  rw [h1, h2, h3]; exact h

theorem st_refused {e : Env} {tk : Bool} {a : Arch} {i : BitVec 16} {x : W} {s : S}
    (ho : EnvOk e) (h : OpX e tk a i x s) (hop : (opOf i).toNat = 0x50)
    (hk : a.permits x = false) (hx : x.toNat < 4 * words e) : Ev e tk (Refused e tk a) s := by
  have hro := h.roar
  rw [hop] at hro
  have hkey : Denied s := denied_of h.arch h.sar hk (by have := ho.lim; omega)
  refine Ev.acc (n := 0x281) ho h.ask hro (by rw [w281]; decide)
    (fun t => x281_p e _ (acc t s) (hkey.congr rfl rfl rfl)) fun t ht hc => .now
      ⟨rfl, h.arch, hc.congr (by unfold memPart; rfl), h.il⟩

theorem st29_refused {e : Env} {tk : Bool} {a : Arch} {n : Nat} {s : S} (ho : EnvOk e)
    (h : AtEnd e tk a s) (hm : s.ms = .r1) (hb : s.bump = false) (hk : Denied s) (hil : s.ILC = 2#2)
    (hr : s.ROAR = n) (h29 : ((Cpu50.ros n).tr == 29) = true)
    (hF : ∀ ex s, Denied s → ∃ alu aob, exec e (Cpu50.ros n) ex s = .ok { s with
      alu := alu, aob := aob, u := 0#8, w := 0#8, EDST := 3#2,
      LSA := s.FN ++ s.J, ROAR := 0x142 }) : Ev e tk (Refused e tk a) s := by
  choose alu aob hF using fun (tu ex : Bool) =>
    hF ex { s with timUp := tu, SDR := s.mem (memIx s.SA), ms := .w1 } (hk.congr rfl rfl rfl)
  exact Ev.mod ho h.calm hb hm hr h29 hF fun tu ex hex hc => .now
    ⟨rfl, h.arch, hc.congr (by unfold memPart; rfl), hil⟩

theorem stc_refused {e : Env} {tk : Bool} {a : Arch} {i : BitVec 16} {x : W} {s : S} (ho : EnvOk e)
    (h : Op4 e tk a i x s) (hop : (opOf i).toNat = 0x42) (hx : x.toNat < 4 * words e)
    (hk : a.permits x = false) : Ev e tk (Refused e tk a) s := by
  have hro := h.roar
  rw [hop] at hro
  refine Ev.wait (n := 0x708) ho h.ae.calm hro (by rw [w708]; decide) (by rw [w708]; decide)
    (fun tu sa ex => x708 e _ _) fun tu sa ex hex hc2 => ?_
  have hq := Req.mk' (i := i) ho h.ae h.fn h.md hx (s' := { s with
    timUp := tu, SDR := sdrAt s, SA := sa, ms := .w1,
    SAR := s.L &&& 16777215#32, alu := s.L, aob := s.L, u := byteOf s.L s.LB, w := byteOf s.L s.LB,
    BS := 0#4, MB := BitVec.setWidth 2 (byteOf s.L s.LB), EDST := 3#2, LSA := s.FN ++ s.J,
    initMem := true, ROAR := 0x746 })
    rfl rfl rfl rfl hc2.qt rfl rfl rfl rfl rfl rfl rfl h.l
  refine Ev.acc (n := 0x746) ho hq.ask rfl (by rw [w746]; decide) (fun t => x746 e _ _)
    fun t ht hc => ?_
  have hpm := denied_of hq.arch hq.sar hk (by have := ho.lim; omega)
  exact st29_refused (n := 0x920) ho ((hq.acc hc).upd (hc.congr (by unfold memPart; rfl)) hq.arch
    rfl rfl rfl rfl rfl rfl rfl) rfl rfl (hpm.congr rfl rfl rfl) h.il rfl (by rw [w920]; rfl)
    (fun ex s hk => ⟨_, _, x920_p e ex s hk⟩)

theorem sth_refused {e : Env} {tk : Bool} {a : Arch} {i : BitVec 16} {x : W} {s : S} (ho : EnvOk e)
    (h : Op4 e tk a i x s) (hop : (opOf i).toNat = 0x40) (hx : x.toNat < 4 * words e)
    (he : x.toNat % 2 = 0) (hk : a.permits x = false) : Ev e tk (Refused e tk a) s := by
  have hro := h.roar
  rw [hop] at hro
  refine Ev.plain (n := 0x700) ho h.ae.calm hro (by rw [w700]; decide) (fun t => x700 e _ _)
    (fun t => by unfold memPart; rfl) fun t ht hc => ?_
  have hae := h.ae.upd hc h.ae.arch rfl rfl rfl rfl rfl rfl rfl
  refine Ev.wait (n := 0x729) ho hc rfl (by rw [w729]; decide) (by rw [w729]; decide)
    (fun tu sa ex => x729 e _ _) fun tu sa ex hex hc2 => ?_
  have h2 := even2 h.l he
  have h1 := even1 h.l he
  refine Ev.bind (P := fun s' => Req e tk a i x s' ∧ s'.ILC = 2#2 ∧
    s'.ROAR = 1864 ||| (decide (x.toNat % 4 ≠ 0)).toNat) (.now ?_) ?_
  · refine ⟨Req.mk' ho hae h.fn h.md hx rfl rfl rfl rfl hc2.qt rfl rfl rfl rfl rfl rfl rfl h.l, h.il, ?_⟩
    show (1864 ||| 2 * (s.L &&& 1#32 != 0#32).toNat +
      ((s.L &&& 2#32 != 0#32) || s.L &&& 1#32 != 0#32).toNat) = _
    rw [h1, h2]; simp
  rintro s1 ⟨hq, il1, hr1⟩
  have hpm := denied_of hq.arch hq.sar hk (by have := ho.lim; omega)
  by_cases h4 : x.toNat % 4 = 0
  · replace hr1 : s1.ROAR = 0x748 := by rw [hr1, decide_eq_false (by simp [h4])]; rfl
    refine Ev.accWait (n := 0x748) ho hq.ask hr1 (by rw [w748]; rfl) fun t ht hc => ?_
    exact st29_refused (n := 0x748) ho (hq.acc hc) rfl rfl (hpm.congr rfl rfl rfl) il1 hr1
      (by rw [w748]; rfl) (fun ex s hk => ⟨_, _, x748_p e ex s hk⟩)
  · replace hr1 : s1.ROAR = 0x749 := by rw [hr1, decide_eq_true h4]; rfl
    refine Ev.acc (n := 0x749) ho hq.ask hr1 (by rw [w749]; rfl) (fun t => x749 e _ _)
      fun t ht hc => ?_
    exact st29_refused (n := 0x920) ho ((hq.acc hc).upd (hc.congr (by unfold memPart; rfl)) hq.arch
      rfl rfl rfl rfl rfl rfl rfl) rfl rfl (hpm.congr rfl rfl rfl) il1 rfl (by rw [w920]; rfl)
      (fun ex s hk => ⟨_, _, x920_p e ex s hk⟩)

theorem mvi_refused {e : Env} {tk : Bool} {a : Arch} {i : BitVec 16} {x : W} {s : S} (ho : EnvOk e)
    (h : Op9 e tk a i x s) (hop : (opOf i).toNat = 0x92) (hx : x.toNat < 4 * words e)
    (hk : a.permits x = false) : Ev e tk (Refused e tk a) s := by
  have hro := h.roar
  rw [hop] at hro
  refine Ev.wait (n := 0x90a) ho h.ae.calm hro (by rw [w90a]; decide) (by rw [w90a]; decide)
    (fun tu sa ex => x90a e _ _) fun tu sa ex hex hc2 => ?_
  refine Ev.bind (P := fun s' => Req e tk a i x s' ∧ s'.ILC = 2#2 ∧ s'.ROAR = 0x91c) (.now ?_) ?_
  · exact ⟨Req.mk' (i := i) ho h.ae h.fn h.md hx rfl rfl rfl rfl hc2.qt rfl rfl rfl rfl rfl rfl rfl h.r,
      h.il, rfl⟩
  rintro s1 ⟨hq, il1, hr1⟩
  refine Ev.acc (n := 0x91c) ho hq.ask hr1 (by rw [w91c]; decide) (fun t => x91c e _ _)
    fun t ht hc => ?_
  have hpm := denied_of hq.arch hq.sar hk (by have := ho.lim; omega)
  exact st29_refused (n := 0x920) ho ((hq.acc hc).upd (hc.congr (by unfold memPart; rfl)) hq.arch
    rfl rfl rfl rfl rfl rfl rfl) rfl rfl (hpm.congr rfl rfl rfl) il1 rfl (by rw [w920]; rfl)
    (fun ex s hk => ⟨_, _, x920_p e ex s hk⟩)

theorem logic_refused {e : Env} {tk : Bool} {a : Arch} {i : BitVec 16} {x : W} {s : S} {n : Nat}
    {f : BitVec 3} (ho : EnvOk e)
    (h : Op9 e tk a i x s) (hop : (2304 ||| ((opOf i).toNat % 16) <<< 2 ||| 2) = n)
    (hn : ∀ ex (s : S), exec e (Cpu50.ros n) ex s = .ok { s with
      SAR := s.R &&& 16777215#32, alu := s.R, aob := s.R, u := BitVec.setWidth 8 s.R,
      w := BitVec.setWidth 8 s.R,
      MB := BitVec.setWidth 2 s.R, EDST := 3#2, mvf := f, LSA := s.FN ++ s.J, initMem := true,
      ROAR := 0x924 })
    (hw : (interlocked (Cpu50.ros n).tr || usesStore (Cpu50.ros n)) = true)
    (h29 : ((Cpu50.ros n).tr == 29) = false)
    (hx : x.toNat < 4 * words e) (hk : a.permits x = false) : Ev e tk (Refused e tk a) s := by
  have hro := h.roar
  rw [hop] at hro
  refine Ev.wait ho h.ae.calm hro hw h29 (fun tu sa ex => hn _ _) fun tu sa ex hex hc2 => ?_
  refine Ev.bind (P := fun s' => Req e tk a i x s' ∧ s'.R = s.R ∧ s'.ILC = 2#2 ∧
    s'.ROAR = 0x924) (.now ?_) ?_
  · exact ⟨Req.mk' (i := i) ho h.ae h.fn h.md hx rfl rfl rfl rfl hc2.qt rfl rfl rfl rfl rfl rfl rfl h.r,
      rfl, h.il, rfl⟩
  rintro s1 ⟨hq, r1, il1, hr1⟩
  refine Ev.accWait (n := 0x924) ho hq.ask hr1 (by rw [w924]; decide) fun t ht hc => ?_
  have hae := hq.acc hc
  refine Ev.wait (n := 0x924) ho hc hr1 (by rw [w924]; decide) (by rw [w924]; decide)
    (fun tu sa ex => x924 e _ _) fun tu sa ex hex hc2 => ?_
  refine Ev.bind (P := fun s' => AtEnd e tk a s' ∧ s'.FN = 3#2 ∧ s'.MD = dig1 i ∧ s'.R = s.R ∧
    s'.ILC = 2#2 ∧ s'.ROAR = 0x928) (.now ?_) ?_
  · exact ⟨hae.upd (hc2.congr (by unfold memPart; rfl)) hq.arch rfl rfl rfl rfl rfl rfl rfl, hq.fn,
      hq.md, r1, il1, rfl⟩
  rintro s2 ⟨ae2, fn2, md2, r2, il2, ro2⟩
  refine Ev.wait (n := 0x928) ho ae2.calm ro2 (by rw [w928]; decide) (by rw [w928]; decide)
    (fun tu sa ex => x928 e _ _) fun tu sa ex hex hc3 => ?_
  refine Ev.bind (P := fun s' => Req e tk a i x s' ∧ s'.ILC = 2#2 ∧ s'.ROAR = 0x92c) (.now ?_) ?_
  · exact ⟨Req.mk' ho ae2 fn2 md2 hx rfl rfl rfl rfl hc3.qt rfl rfl rfl rfl rfl rfl rfl
      (by rw [← h.r, ← r2]), il2, rfl⟩
  rintro s3 ⟨hq, il3, ro3⟩
  refine Ev.accWait (n := 0x92c) ho hq.ask ro3 (by rw [w92c]; decide) fun t4 ht4 hc4 => ?_
  have hpm := denied_of hq.arch hq.sar hk (by have := ho.lim; omega)
  exact st29_refused (n := 0x92c) ho (hq.acc hc4) rfl rfl (hpm.congr rfl rfl rfl) il3 ro3
    (by rw [w92c]; rfl) (fun ex s hk => ⟨_, _, x92c_p e ex s hk⟩)

/-- ST, STH, STC, MVI, NI, OI and XI without permission. -/
theorem refused_exec {e : Env} {tk : Bool} {a : Arch} {s : S} {n : Nat} {x : W} (ho : EnvOk e)
    (h : Ready e tk a s) (hia : InStore e a) (hop : storeLen (opOf a.inst) = some n)
    (hx : x = ea a (indexOf a.inst) ((a.half (a.ia.toNat + 2)).extractLsb' 12 4)
      ((a.half (a.ia.toNat + 2)).extractLsb' 0 12))
    (hw : Arch.within (4 * words e) n x) (hk : a.permits x = false) :
    Ev e tk (Refused e tk { a with ia := a.ia + 4 }) s := by
  subst hx
  have h1 := hw
  simp only [Arch.within, Bool.and_eq_true, beq_iff_eq, decide_eq_true_eq] at h1
  have hrx : (opOf a.inst).toNat < 0x80 → indexOf a.inst = dig2 a.inst := fun h => if_pos h
  have hsi : ¬ (opOf a.inst).toNat < 0x80 → indexOf a.inst = 0 := fun h => if_neg h
  unfold storeLen at hop
  split at hop <;> rename_i heq
  · obtain rfl := Option.some.inj hop
    rw [hrx (by omega)] at hk hw h1
    refine Ev.bind (fetch_rx ho h (by omega) (by omega) hia.rg) fun s1 f1 => ?_
    refine Ev.bind (to_op4 ho f1 (by omega)) fun s2 f2 => ?_
    exact sth_refused ho f2 heq (Nat.lt_of_lt_of_le (Nat.lt_add_of_pos_right (by decide)) h1.2) h1.1 hk
  · obtain rfl := Option.some.inj hop
    rw [hrx (by omega)] at hk hw h1
    refine Ev.bind (fetch_rx ho h (by omega) (by omega) hia.rg) fun s1 f1 => ?_
    refine Ev.bind (to_op4 ho f1 (by omega)) fun s2 f2 => ?_
    exact stc_refused ho f2 heq h1.2 hk
  · obtain rfl := Option.some.inj hop
    rw [hrx (by omega)] at hk hw h1
    refine Ev.bind (fetch_rx ho h (by omega) (by omega) hia.rg) fun s1 f1 => ?_
    refine Ev.bind (to_opx ho f1 (by omega) hw) fun s2 f2 => ?_
    exact st_refused ho f2 heq hk (Nat.lt_of_lt_of_le (Nat.lt_add_of_pos_right (by decide)) h1.2)
  · obtain rfl := Option.some.inj hop
    rw [hsi (by omega)] at hk hw h1
    refine Ev.bind (fetch_rx ho h (by omega) (by omega) hia.rg) fun s1 f1 => ?_
    refine Ev.bind (to_op9 ho f1 (by omega)) fun s2 f2 => ?_
    exact mvi_refused ho f2 heq h1.2 hk
  · obtain rfl := Option.some.inj hop
    rw [hsi (by omega)] at hk hw h1
    refine Ev.bind (fetch_rx ho h (by omega) (by omega) hia.rg) fun s1 f1 => ?_
    refine Ev.bind (to_op9 ho f1 (by omega)) fun s2 f2 => ?_
    exact logic_refused (n := 0x912) ho f2 (by rw [heq]; rfl) (fun ex s => x912 e ex s)
      (by rw [w912]; decide) (by rw [w912]; decide) h1.2 hk
  · obtain rfl := Option.some.inj hop
    rw [hsi (by omega)] at hk hw h1
    refine Ev.bind (fetch_rx ho h (by omega) (by omega) hia.rg) fun s1 f1 => ?_
    refine Ev.bind (to_op9 ho f1 (by omega)) fun s2 f2 => ?_
    exact logic_refused (n := 0x91a) ho f2 (by rw [heq]; rfl) (fun ex s => x91a e ex s)
      (by rw [w91a]; decide) (by rw [w91a]; decide) h1.2 hk
  · obtain rfl := Option.some.inj hop
    rw [hsi (by omega)] at hk hw h1
    refine Ev.bind (fetch_rx ho h (by omega) (by omega) hia.rg) fun s1 f1 => ?_
    refine Ev.bind (to_op9 ho f1 (by omega)) fun s2 f2 => ?_
    exact logic_refused (n := 0x91e) ho f2 (by rw [heq]; rfl) (fun ex s => x91e e ex s)
      (by rw [w91e]; decide) (by rw [w91e]; decide) h1.2 hk
  · exact nomatch hop

end Verif.Cpu50
