import Verif.Cpu50.Words12
import Verif.Cpu50.Multiple
import Verif.Cpu50.Irq2
import Verif.Cpu50.ExecuteProps

/-!
# Model 2050: checks of the address of a storage operand

The words of `/repo/src/model2050/ros.txt` which put an operand address into the address register
with a check for a word boundary (lines 2939-2947 of `/repo/src/model2050/cpu2050.c`
send a wrong one to word 1c2), and the check against the size of storage when the reference is accepted (word 1c0).
-/

namespace Verif.Cpu50

open Verif.S360

theorem begins5 {e : Env} : Begins e 0x1c0 5#8 :=
  ⟨fun ex s => x1c0 e ex s, by rw [w1c0], by rw [w1c0]; decide, by rw [w1c0]; decide⟩

theorem begins6 {e : Env} {n : Nat} (h : Cpu50.ros n = Cpu50.ros 0x1c2) : Begins e n 6#8 :=
  ⟨fun ex s => by rw [h]; exact x1c2 e ex s, by rw [h, w1c2], by rw [h, w1c2]; decide, by rw [h, w1c2]; decide⟩

theorem ros_707 : Cpu50.ros 0x707 = Cpu50.ros 0x1c2 := by decide +kernel

theorem ros_74b : Cpu50.ros 0x74b = Cpu50.ros 0x1c2 := by decide +kernel

/-- After the word which puts the operand address `x` into the address register: the reference is
asked for if `x` is a multiple of 4. -/
structure Opr (e : Env) (tk : Bool) (a : Arch) (x : W) (s : S) : Prop where
  arch : archOf s = a
  il : s.ILC = 2#2
  sar : s.SAR = x
  ib : s.initBump = false
  ud : s.updD = false
  ms : s.ms = .w1
  qt : tk = false → exc s = false
  al : x.toNat % 4 = 0 → s.initMem = true
  mis : x.toNat % 4 ≠ 0 → s.initMem = false ∧ s.ROAR = 0x1c2

/-- Not a multiple of 4. -/
theorem spec_exec {e : Env} {tk : Bool} {a b : Arch} {x : W} {s : S} (ho : EnvOk e) (h : Opr e tk a x s)
    (hx : x.toNat % 4 ≠ 0) (hk : a.Kept) (hm : 112 ≤ 4 * words e) (hb : b = interrupt a 0x28 6 2)
    (hw : tk = false → Quiet a b) (hi : InStore e b) : Ev e tk (Bd e tk b) s := by
  obtain ⟨h1, h2⟩ := h.mis hx
  refine pgm_exec (a := a) ho (begins6 rfl) ⟨⟨h1, h.ib, h.ud, by rw [h.ms]; decide, ?_, h.qt⟩, h.arch⟩ h.il h2 hk hm hb hw hi
  rw [h.ms]; rintro (h | h) <;> cases h

/-- A reference outside of storage. -/
theorem addr_run {e : Env} {tk : Bool} {a b : Arch} {s : S} (ho : EnvOk e) (arch : archOf s = a)
    (il : s.ILC = 2#2) (im : s.initMem = true) (ib : s.initBump = false) (ud : s.updD = false)
    (ms : s.ms = .w1) (qt : tk = false → exc s = false)
    (hl : 4 * words e ≤ s.SAR.toNat) (hk : a.Kept) (hm : 112 ≤ 4 * words e)
    (hb : b = interrupt a 0x28 5 2) (hw : tk = false → Quiet a b) (hi : InStore e b) :
    Ev e tk (Bd e tk b) s := by
  have hgt : e.memMax < s.SAR := by
    have := ho.top
    rw [BitVec.lt_def]; omega
  have hmc : ∀ w t, memCycle e w (tickStep t s) = .ok (true,
      { s with timUp := s.timUp || (t && !s.man), SA := s.SAR &&& 0x3ffff, bump := false, initMem := false,
               initBump := false, IVA := true, ROAR := 0x1c0 }) := by
    intro w t
    simp [memCycle, tickStep, ms, writeBack, ud, Out.bind, accept, im, ib, hgt]
  refine .step _ (fun t _ => cycle_held e t s _ (hmc _ t)) fun t ht => ?_
  refine pgm_exec (a := a) ho begins5 ⟨⟨rfl, rfl, ud, by show s.ms ≠ _; rw [ms]; decide, ?_, fun h1 => ?_⟩, arch⟩
    il rfl hk hm hb hw hi
  · show s.ms = _ ∨ s.ms = _ → _
    rw [ms]; rintro (h | h) <;> cases h
  · have := exc_tick qt ht h1
    rw [← this]; rfl

/-- A word operand outside of storage. -/
theorem addr_exec {e : Env} {tk : Bool} {a b : Arch} {x : W} {s : S} (ho : EnvOk e) (h : Opr e tk a x s)
    (hx : x.toNat % 4 = 0) (hl : 4 * words e ≤ x.toNat) (hk : a.Kept) (hm : 112 ≤ 4 * words e)
    (hb : b = interrupt a 0x28 5 2) (hw : tk = false → Quiet a b) (hi : InStore e b) :
    Ev e tk (Bd e tk b) s :=
  addr_run ho h.arch h.il (h.al hx) h.ib h.ud h.ms h.qt (by rw [h.sar]; exact hl) hk hm hb hw hi

/-! ### The words which set the address register -/

theorem opr_last {e : Env} {tk : Bool} {a : Arch} {v : W} {s : S} {n : Nat}
    (ho : EnvOk e) (h : AtEnd e tk a s) (il : s.ILC = 2#2) (hr : s.ROAR = n)
    (hint : (interlocked (Cpu50.ros n).tr || usesStore (Cpu50.ros n)) = true)
    (h29 : ((Cpu50.ros n).tr == 29) = false)
    (hx : ∀ tu sa ex, ∃ u w alu aob, exec e (Cpu50.ros n) ex
      { s with timUp := tu, SDR := sdrAt s, SA := sa, ms := .w1 } = .ok { s with
        timUp := tu, SDR := sdrAt s, SA := sa, ms := .w1, R := v, L := s.LS (s.FN ++ s.MD),
        SAR := v &&& 16777215#32, alu := alu, aob := aob, u := u, w := w, EDST := 3#2,
        LSA := s.FN ++ s.MD, initMem := s.initMem || v &&& 16777215#32 &&& 3#32 == 0#32,
        ROAR := if v &&& 16777215#32 &&& 3#32 = 0#32 then 640 ||| nib s.M 6 <<< 2 ||| 1 else 450 }) :
    Ev e tk (Opr e tk a (v &&& 0xffffff#32)) s := by
  choose u w alu aob hx using hx
  refine Ev.wait ho h.calm hr hint h29 hx fun tu sa ex hex hc => .now ?_
  refine ⟨h.arch, il, rfl, hc.ib, hc.ud, rfl, hc.qt, fun h1 => ?_, fun h1 => ?_⟩
  · show (_ || _) = true
    rw [(and3_mod _).2 h1]; simp
  · have h2 : ¬ v &&& 16777215#32 &&& 3#32 = 0#32 := fun h => h1 ((and3_mod _).1 h)
    refine ⟨?_, if_neg h2⟩
    show (s.initMem || _) = false
    rw [h.calm.im, Bool.false_or]
    exact beq_eq_false_iff_ne.2 h2

/-- Group 5. -/
theorem opr_rx {e : Env} {tk : Bool} {a : Arch} {i i1 : BitVec 16} {s : S} (ho : EnvOk e)
    (h : FetRX e tk a i i1 s) (hop : (opOf i).toNat / 16 = 5) :
    Ev e tk (Opr e tk a (ea a (dig2 i) (i1.extractLsb' 12 4) (i1.extractLsb' 0 12))) s := by
  have hro := h.roar
  have h64 : (opOf i).toNat / 64 = 1 := by omega
  rw [hop, decide_eq_true h64, Bool.and_true] at hro
  have hgx : s.LS (s.FN ++ s.J) = a.gr (dig2 i) := by
    rw [h.j, show s.FN = 3#2 from h.fn, gr_of h.arch]
  have hd := h.d
  have h0 := h.s0
  have h1 := h.s1
  have hl := h.l
  unfold ea
  generalize hB : i1.extractLsb' 12 4 = b at *
  generalize hD : (i1.extractLsb' 0 12).setWidth 32 = d at *
  by_cases hx : dig2 i = 0
  · rw [if_pos hx]
    rw [hx] at h0
    by_cases hb : b = 0
    · rw [if_pos hb]
      rw [hb] at h1
      rw [h0, h1] at hro
      have hz : (0 : W) + 0 + d = s.M &&& 65535#32 := by rw [hd]; simp
      rw [hz]
      exact opr_last ho h.atEnd h.ilc (n := 0x117) hro
        (by rw [w117]; decide) (by rw [w117]; decide)
        fun tu sa ex => ⟨_, _, _, _, x117 e _ _⟩
    · rw [if_neg hb]
      rw [show (b == 0) = false by simpa using hb] at h1
      rw [h0, h1] at hro
      have hz : (0 : W) + a.gr b + d = s.L + (s.M &&& 65535#32) := by rw [hd, hl]; simp
      rw [hz]
      exact opr_last ho h.atEnd h.ilc (n := 0x116) hro
        (by rw [w116]; decide) (by rw [w116]; decide)
        fun tu sa ex => ⟨_, _, _, _, x116 e _ _⟩
  · rw [if_neg hx]
    rw [show (dig2 i == 0) = false by simpa using hx] at h0
    by_cases hb : b = 0
    · rw [if_pos hb]
      rw [hb] at h1
      rw [h0, h1] at hro
      have hz : a.gr (dig2 i) + 0 + d = s.LS (s.FN ++ s.J) + (s.M &&& 65535#32) := by
        rw [hd, hgx]; simp
      rw [hz]
      refine Ev.plain ho h.calm (n := 0x115) hro (by rw [w115]; decide) (fun t => x115 e _ _)
        (fun t => by unfold memPart; rfl) fun t ht hc => ?_
      exact opr_last ho (h.atEnd.upd hc h.arch rfl rfl rfl rfl rfl rfl rfl) h.ilc (n := 0x123) rfl
        (by rw [w123]; decide) (by rw [w123]; decide)
        fun tu sa ex => ⟨_, _, _, _, x123 e _ _⟩
    · rw [if_neg hb]
      rw [show (b == 0) = false by simpa using hb] at h1
      rw [h0, h1] at hro
      have hz : a.gr (dig2 i) + a.gr b + d =
          s.LS (s.FN ++ s.J) + (s.L + (s.M &&& 65535#32)) := by
        rw [hd, hgx, hl, BitVec.add_assoc]
      rw [hz]
      refine Ev.plain ho h.calm (n := 0x114) hro (by rw [w114]; decide) (fun t => x114 e _ _)
        (fun t => by unfold memPart; rfl) fun t ht hc => ?_
      exact opr_last ho (h.atEnd.upd hc h.arch rfl rfl rfl rfl rfl rfl rfl) h.ilc (n := 0x123) rfl
        (by rw [w123]; decide) (by rw [w123]; decide)
        fun tu sa ex => ⟨_, _, _, _, x123 e _ _⟩

/-- LOAD MULTIPLE and STORE MULTIPLE. -/
theorem opr_rs {e : Env} {tk : Bool} {a : Arch} {i : BitVec 16} {x : W} {s : S} (ho : EnvOk e)
    (h : Op9 e tk a i x s) (hop : (opOf i).toNat = 0x90 ∨ (opOf i).toNat = 0x98) :
    Ev e tk (Opr e tk a x) s := by
  refine Ev.bind (P := fun s' => AtEnd e tk a s' ∧ s'.R = s.R ∧ s'.ILC = 2#2 ∧ s'.ROAR = 0x94c) ?_ ?_
  · have hro := h.roar
    rcases hop with hop | hop <;> rw [hop] at hro
    · refine Ev.plain (n := 0x902) ho h.ae.calm hro (by rw [w902]; decide) (fun t => x902 e _ _)
        (fun t => by unfold memPart; rfl) fun t ht hc => .now ?_
      exact ⟨h.ae.updF hc h.ae.arch rfl rfl (hi_lt _) rfl rfl rfl rfl, rfl, h.il, rfl⟩
    · refine Ev.plain (n := 0x922) ho h.ae.calm hro (by rw [w922]; decide) (fun t => x922 e _ _)
        (fun t => by unfold memPart; rfl) fun t ht hc => .now ?_
      exact ⟨h.ae.updF hc h.ae.arch rfl rfl (hi_lt _) rfl rfl rfl rfl, rfl, h.il, rfl⟩
  rintro s1 ⟨ae, hr, hil, ro⟩
  have hrx : s1.R &&& 16777215#32 = x := by rw [hr]; exact h.r
  refine Ev.wait (n := 0x94c) ho ae.calm ro (by rw [w94c]; decide) (by rw [w94c]; decide)
    (fun tu sa ex => x94c e _ _) fun tu sa ex hex hc => .now ?_
  refine ⟨ae.arch, hil, hrx, hc.ib, hc.ud, rfl, hc.qt, fun h1 => ?_, fun h1 => ?_⟩
  · show (s1.initMem || s1.R &&& 16777215#32 &&& 3#32 == 0#32) = true
    rw [hrx, (and3_mod _).2 h1]; simp
  · have h2 : ¬ s1.R &&& 16777215#32 &&& 3#32 = 0#32 := fun h => h1 ((and3_mod _).1 (hrx ▸ h))
    refine ⟨?_, if_neg h2⟩
    show (s1.initMem || s1.R &&& 16777215#32 &&& 3#32 == 0#32) = false
    rw [ae.calm.im, Bool.false_or]
    exact beq_eq_false_iff_ne.2 h2

/-! ### Bytes and halfwords -/

/-- After the word which asks for the byte or halfword at `x`. -/
structure Opb (e : Env) (tk : Bool) (a : Arch) (x : W) (s : S) : Prop where
  arch : archOf s = a
  il : s.ILC = 2#2
  sar : s.SAR = x
  im : s.initMem = true
  ib : s.initBump = false
  ud : s.updD = false
  ms : s.ms = .w1
  qt : tk = false → exc s = false

theorem opb_last {e : Env} {tk : Bool} {a : Arch} {x : W} {s : S} {n : Nat} {g : S → S}
    (ho : EnvOk e) (h : AtEnd e tk a s) (hr : s.ROAR = n)
    (hint : (interlocked (Cpu50.ros n).tr || usesStore (Cpu50.ros n)) = true)
    (h29 : ((Cpu50.ros n).tr == 29) = false)
    (hx : ∀ ex s, exec e (Cpu50.ros n) ex s = .ok (g s))
    (hg : ∀ tu sa, (fun s0 s' : S => archOf s' = archOf s0 ∧ s'.ILC = 2#2 ∧ s'.SAR = x ∧ s'.initMem = true ∧
      s'.initBump = s0.initBump ∧ s'.updD = s0.updD ∧ s'.ms = s0.ms ∧ exc s' = exc s0)
      { s with timUp := tu, SDR := sdrAt s, SA := sa, ms := .w1 }
      (g { s with timUp := tu, SDR := sdrAt s, SA := sa, ms := .w1 })) :
    Ev e tk (Opb e tk a x) s := by
  refine Ev.wait ho h.calm hr hint h29 (fun tu sa ex => hx ex _) fun tu sa ex hex hc => .now ?_
  obtain ⟨h1, h2, h3, h4, h5, h6, h7, h8⟩ := hg tu sa
  exact ⟨h1.trans h.arch, h2, h3, h4, h5.trans hc.ib, h6.trans hc.ud, h7, fun h => h8.trans (hc.qt h)⟩

/-- STH, STC, IC, EX, LH, CH, AH, SH and MH. -/
theorem opb_op4 {e : Env} {tk : Bool} {a : Arch} {i : BitVec 16} {x : W} {s : S} (ho : EnvOk e)
    (h : Op4 e tk a i x s) (hop : (opOf i).toNat = 0x40 ∨ (opOf i).toNat = 0x42 ∨ (opOf i).toNat = 0x43 ∨
      (opOf i).toNat = 0x44 ∨ (0x48 ≤ (opOf i).toNat ∧ (opOf i).toNat ≤ 0x4c)) : Ev e tk (Opb e tk a x) s := by
  have h1 : (opOf i).toNat = 0x40 ∨ (opOf i).toNat = 0x42 ∨ (opOf i).toNat = 0x43 ∨ (opOf i).toNat = 0x44 ∨
      (opOf i).toNat = 0x48 ∨ (opOf i).toNat = 0x49 ∨ (opOf i).toNat = 0x4a ∨ (opOf i).toNat = 0x4b ∨
      (opOf i).toNat = 0x4c := by omega
  have hro := h.roar
  rcases h1 with h1 | h1 | h1 | h1 | h1 | h1 | h1 | h1 | h1 <;> rw [h1] at hro
  · refine Ev.plain (n := 0x700) ho h.ae.calm hro (by rw [w700]; decide) (fun t => x700 e _ _)
      (fun t => by unfold memPart; rfl) fun t ht hc => ?_
    exact opb_last (n := 0x729) ho (h.ae.upd hc h.ae.arch rfl rfl rfl rfl rfl rfl rfl) rfl (by rw [w729]; decide)
      (by rw [w729]; decide) (fun ex s => x729 e ex s) fun tu sa => ⟨rfl, h.il, h.l, rfl, rfl, rfl, rfl, rfl⟩
  · exact opb_last (n := 0x708) ho h.ae hro (by rw [w708]; decide)
      (by rw [w708]; decide) (fun ex s => x708 e ex s) fun tu sa => ⟨rfl, h.il, h.l, rfl, rfl, rfl, rfl, rfl⟩
  · exact opb_last (n := 0x70c) ho h.ae hro (by rw [w70c]; decide)
      (by rw [w70c]; decide) (fun ex s => x70c e ex s) fun tu sa => ⟨rfl, h.il, h.l, rfl, rfl, rfl, rfl, rfl⟩
  · exact opb_last (n := 0x710) ho h.ae hro (by rw [w710]; decide)
      (by rw [w710]; decide) (fun ex s => x710 e ex s) fun tu sa => ⟨rfl, h.il, h.l, rfl, rfl, rfl, rfl, rfl⟩
  · exact opb_last (n := 0x720) ho h.ae hro (by rw [w720]; decide)
      (by rw [w720]; decide) (fun ex s => x720 e ex s) fun tu sa => ⟨rfl, h.il, h.l, rfl, rfl, rfl, rfl, rfl⟩
  · exact opb_last (n := 0x724) ho h.ae hro (by rw [w724]; decide)
      (by rw [w724]; decide) (fun ex s => x724 e ex s) fun tu sa => ⟨rfl, h.il, h.l, rfl, rfl, rfl, rfl, rfl⟩
  · exact opb_last (n := 0x728) ho h.ae hro (by rw [w728]; decide)
      (by rw [w728]; decide) (fun ex s => x728 e ex s) fun tu sa => ⟨rfl, h.il, h.l, rfl, rfl, rfl, rfl, rfl⟩
  · exact opb_last (n := 0x72c) ho h.ae hro (by rw [w72c]; decide)
      (by rw [w72c]; decide) (fun ex s => x72c e ex s) fun tu sa => ⟨rfl, h.il, h.l, rfl, rfl, rfl, rfl, rfl⟩
  · exact opb_last (n := 0x730) ho h.ae hro (by rw [w730]; decide)
      (by rw [w730]; decide) (fun ex s => x730 e ex s) fun tu sa => ⟨rfl, h.il, h.l, rfl, rfl, rfl, rfl, rfl⟩

/-- TM, MVI, TS, NI, CLI, OI and XI. -/
theorem opb_op9 {e : Env} {tk : Bool} {a : Arch} {i : BitVec 16} {x : W} {s : S} (ho : EnvOk e)
    (h : Op9 e tk a i x s) (hop : 0x91 ≤ (opOf i).toNat ∧ (opOf i).toNat ≤ 0x97) : Ev e tk (Opb e tk a x) s := by
  have h1 : (opOf i).toNat = 0x91 ∨ (opOf i).toNat = 0x92 ∨ (opOf i).toNat = 0x93 ∨ (opOf i).toNat = 0x94 ∨
      (opOf i).toNat = 0x95 ∨ (opOf i).toNat = 0x96 ∨ (opOf i).toNat = 0x97 := by omega
  have hro := h.roar
  rcases h1 with h1 | h1 | h1 | h1 | h1 | h1 | h1 <;> rw [h1] at hro
  · exact opb_last (n := 0x906) ho h.ae hro (by rw [w906]; decide)
      (by rw [w906]; decide) (fun ex s => x906 e ex s) fun tu sa => ⟨rfl, h.il, h.r, rfl, rfl, rfl, rfl, rfl⟩
  · exact opb_last (n := 0x90a) ho h.ae hro (by rw [w90a]; decide)
      (by rw [w90a]; decide) (fun ex s => x90a e ex s) fun tu sa => ⟨rfl, h.il, h.r, rfl, rfl, rfl, rfl, rfl⟩
  · exact opb_last (n := 0x90e) ho h.ae hro (by rw [w90e]; decide)
      (by rw [w90e]; decide) (fun ex s => x90e e ex s) fun tu sa => ⟨rfl, h.il, h.r, rfl, rfl, rfl, rfl, rfl⟩
  · exact opb_last (n := 0x912) ho h.ae hro (by rw [w912]; decide)
      (by rw [w912]; decide) (fun ex s => x912 e ex s) fun tu sa => ⟨rfl, h.il, h.r, rfl, rfl, rfl, rfl, rfl⟩
  · exact opb_last (n := 0x916) ho h.ae hro (by rw [w916]; decide)
      (by rw [w916]; decide) (fun ex s => x916 e ex s) fun tu sa => ⟨rfl, h.il, h.r, rfl, rfl, rfl, rfl, rfl⟩
  · exact opb_last (n := 0x91a) ho h.ae hro (by rw [w91a]; decide)
      (by rw [w91a]; decide) (fun ex s => x91a e ex s) fun tu sa => ⟨rfl, h.il, h.r, rfl, rfl, rfl, rfl, rfl⟩
  · exact opb_last (n := 0x91e) ho h.ae hro (by rw [w91e]; decide)
      (by rw [w91e]; decide) (fun ex s => x91e e ex s) fun tu sa => ⟨rfl, h.il, h.r, rfl, rfl, rfl, rfl, rfl⟩

/-- SSM, and LPSW with a multiple of 8. -/
theorem opb_op8 {e : Env} {tk : Bool} {a : Arch} {i : BitVec 16} {x : W} {s : S} (ho : EnvOk e)
    (h : Op8 e tk a i x s)
    (hop : (opOf i).toNat = 0x80 ∨ ((opOf i).toNat = 0x82 ∧ x.toNat % 8 = 0)) : Ev e tk (Opb e tk a x) s := by
  have hro := h.roar
  rcases hop with h1 | ⟨h1, h8⟩ <;> rw [h1] at hro
  · exact opb_last (n := 0x702) ho h.ae hro (by rw [w702]; decide)
      (by rw [w702]; decide) (fun ex s => x702 e ex s) fun tu sa => ⟨rfl, h.il, h.r, rfl, rfl, rfl, rfl, rfl⟩
  · refine opb_last (n := 0x70a) ho h.ae hro (by rw [w70a]; decide)
      (by rw [w70a]; decide) (fun ex s => x70a e ex s) fun tu sa => ⟨rfl, h.il, h.r, ?_, rfl, rfl, rfl, rfl⟩
    show (s.initMem || s.R &&& 16777215#32 &&& 7#32 == 0#32) = true
    rw [h.r, (and7_mod _).2 h8]; exact Bool.or_true _

/-- LPSW with an address which is not a multiple of 8. -/
theorem dbl_exec {e : Env} {tk : Bool} {a b : Arch} {i : BitVec 16} {x : W} {s : S} (ho : EnvOk e)
    (h : Op8 e tk a i x s) (hop : (opOf i).toNat = 0x82) (h8 : x.toNat % 8 ≠ 0)
    (hk : a.Kept) (hm : 112 ≤ 4 * words e) (hb : b = interrupt a 0x28 6 2)
    (hw : tk = false → Quiet a b) (hi : InStore e b) : Ev e tk (Bd e tk b) s := by
  have hro := h.roar
  rw [hop] at hro
  have h7 : ¬ s.R &&& 16777215#32 &&& 7#32 = 0#32 := by
    rw [h.r]; exact fun h1 => h8 ((and7_mod _).1 h1)
  refine Ev.wait (n := 0x70a) ho h.ae.calm hro (by rw [w70a]; decide) (by rw [w70a]; decide)
    (fun tu sa ex => x70a e _ _) fun tu sa ex hex hc => ?_
  refine pgm_exec (a := a) ho (begins6 rfl) ⟨hc.congr ?_, h.ae.arch⟩ h.il (if_neg h7) hk hm hb hw hi
  have h9 : (s.initMem || s.R &&& 16777215#32 &&& 7#32 == 0#32) = s.initMem := by
    rw [beq_eq_false_iff_ne.2 h7, Bool.or_false]
  unfold memPart
  dsimp only
  rw [h9]

theorem odd_bit {r x : W} (h : r &&& 16777215#32 = x) (he : x.toNat % 2 ≠ 0) :
    (r &&& 1#32 != 0#32) = true := by
  have h1 : r &&& 1#32 = x &&& 1#32 := by
    rw [← h, BitVec.and_assoc]; rfl
  have h2 : (x &&& 1#32).toNat = x.toNat % 2 := by
    rw [BitVec.toNat_and]; exact Nat.and_two_pow_sub_one_eq_mod x.toNat 1
  rw [h1, bne_iff_ne]
  intro h3
  rw [h3] at h2
  exact he h2.symm

/-- Words 72b and 707: an odd address. -/
theorem odd_run {e : Env} {tk : Bool} {a b : Arch} {i : BitVec 16} {x : W} {s : S} (ho : EnvOk e)
    (h : Req e tk a i x s) (hil : s.ILC = 2#2) (hro : s.ROAR = 0x72b) (hR : s.R &&& 16777215#32 = x)
    (he : x.toNat % 2 ≠ 0) (hk : a.Kept) (hm : 112 ≤ 4 * words e) (hb : b = interrupt a 0x28 6 2)
    (hw : tk = false → Quiet a b) (hi : InStore e b) : Ev e tk (Bd e tk b) s := by
  refine Ev.acc (n := 0x72b) ho h.ask hro (by rw [w72b]; decide) (fun t => x72b e _ _)
    fun t ht hc => ?_
  refine pgm_exec (n := 0x707) ho (begins6 ros_707) ⟨hc.congr (by unfold memPart; rfl), h.arch⟩ hil ?_ hk hm hb hw hi
  show (1796 ||| 2 * (s.R &&& 1#32 != 0#32).toNat + 1) = _
  rw [odd_bit hR he]; rfl

/-- STH, LH, CH, AH, SH and MH with an odd address in storage. -/
theorem odd_exec {e : Env} {tk : Bool} {a b : Arch} {i : BitVec 16} {x : W} {s : S} (ho : EnvOk e)
    (h : Op4 e tk a i x s) (hop : (opOf i).toNat = 0x40 ∨ (0x48 ≤ (opOf i).toNat ∧ (opOf i).toNat ≤ 0x4c))
    (hx : x.toNat < 4 * words e)
    (he : x.toNat % 2 ≠ 0) (hk : a.Kept) (hm : 112 ≤ 4 * words e) (hb : b = interrupt a 0x28 6 2)
    (hw : tk = false → Quiet a b) (hi : InStore e b) : Ev e tk (Bd e tk b) s := by
  have h1 : (opOf i).toNat = 0x40 ∨ (opOf i).toNat = 0x48 ∨
      (opOf i).toNat = 0x49 ∨ (opOf i).toNat = 0x4a ∨ (opOf i).toNat = 0x4b ∨ (opOf i).toNat = 0x4c := by omega
  have hro := h.roar
  have k : Ev e tk (fun s' => Req e tk a i x s' ∧ s'.ILC = 2#2 ∧ s'.ROAR = 0x72b ∧ s'.R &&& 16777215#32 = x) s →
      Ev e tk (Bd e tk b) s := fun h1 =>
    Ev.bind h1 fun s' h => odd_run ho h.1 h.2.1 h.2.2.1 h.2.2.2 he hk hm hb hw hi
  rcases h1 with h1 | h1 | h1 | h1 | h1 | h1 <;> rw [h1] at hro
  · refine Ev.plain (n := 0x700) ho h.ae.calm hro (by rw [w700]; decide) (fun t => x700 e _ _)
      (fun t => by unfold memPart; rfl) fun t ht hc => ?_
    have hae := h.ae.upd hc h.ae.arch rfl rfl rfl rfl rfl rfl rfl
    refine Ev.wait (n := 0x729) ho hc rfl (by rw [w729]; decide) (by rw [w729]; decide)
      (fun tu sa ex => x729 e _ _) fun tu sa ex hex hc2 => ?_
    have h3 := odd_bit h.l he
    refine Ev.bind (P := fun s' => Req e tk a i x s' ∧ s'.ILC = 2#2 ∧ s'.ROAR = 0x74b) (.now ?_) ?_
    · refine ⟨Req.mk' ho hae h.fn h.md hx rfl rfl rfl rfl hc2.qt rfl rfl rfl rfl rfl rfl rfl h.l, h.il, ?_⟩
      show (1864 ||| 2 * (s.L &&& 1#32 != 0#32).toNat +
        ((s.L &&& 2#32 != 0#32) || s.L &&& 1#32 != 0#32).toNat) = _
      rw [h3]; simp
    rintro s1 ⟨hq, il1, hr1⟩
    exact pgm_acc (n := 0x74b) ho (begins6 ros_74b) hq.ask hq.arch il1 hr1 hk hm hb hw hi
  · exact k (Ev.wait (n := 0x720) ho h.ae.calm hro (by rw [w720]; decide) (by rw [w720]; decide)
      (fun tu sa ex => x720 e _ _) fun tu sa ex hex hc2 => .now ⟨Req.mk' ho h.ae h.fn h.md hx rfl rfl rfl rfl
        hc2.qt rfl rfl rfl rfl rfl rfl rfl h.l, h.il, rfl, h.l⟩)
  · exact k (Ev.wait (n := 0x724) ho h.ae.calm hro (by rw [w724]; decide) (by rw [w724]; decide)
      (fun tu sa ex => x724 e _ _) fun tu sa ex hex hc2 => .now ⟨Req.mk' ho h.ae h.fn h.md hx rfl rfl rfl rfl
        hc2.qt rfl rfl rfl rfl rfl rfl rfl h.l, h.il, rfl, h.l⟩)
  · exact k (Ev.wait (n := 0x728) ho h.ae.calm hro (by rw [w728]; decide) (by rw [w728]; decide)
      (fun tu sa ex => x728 e _ _) fun tu sa ex hex hc2 => .now ⟨Req.mk' ho h.ae h.fn h.md hx rfl rfl rfl rfl
        hc2.qt rfl rfl rfl rfl rfl rfl rfl h.l, h.il, rfl, h.l⟩)
  · exact k (Ev.wait (n := 0x72c) ho h.ae.calm hro (by rw [w72c]; decide) (by rw [w72c]; decide)
      (fun tu sa ex => x72c e _ _) fun tu sa ex hex hc2 => .now ⟨Req.mk' ho h.ae h.fn h.md hx rfl rfl rfl rfl
        hc2.qt rfl rfl rfl rfl rfl rfl rfl h.l, h.il, rfl, h.l⟩)
  · exact k (Ev.wait (n := 0x730) ho h.ae.calm hro (by rw [w730]; decide) (by rw [w730]; decide)
      (fun tu sa ex => x730 e _ _) fun tu sa ex hex hc2 => .now ⟨Req.mk' ho h.ae h.fn h.md hx rfl rfl rfl rfl
        hc2.qt rfl rfl rfl rfl rfl rfl rfl h.l, h.il, rfl, h.l⟩)

end Verif.Cpu50

namespace Verif.S360

/-- Instructions whose storage operand is one or more whole words: ST, N, CL, O, X, L, C, A, S, M,
D, AL, SL (50, 54-5F), LM (98) and STM (90). -/
def wordOperand (op : BitVec 8) : Prop :=
  op.toNat = 0x50 ∨ (0x54 ≤ op.toNat ∧ op.toNat ≤ 0x5f) ∨ op.toNat = 0x90 ∨ op.toNat = 0x98

/-- Instructions with a halfword operand in storage: STH (40), LH, CH, AH, SH and MH (48-4C). -/
def halfOperand (op : BitVec 8) : Prop := op.toNat = 0x40 ∨ (0x48 ≤ op.toNat ∧ op.toNat ≤ 0x4c)

/-- Instructions with one byte in storage as operand: STC (42), IC (43), SSM (80), TM, MVI, TS, NI,
CLI, OI and XI (91-97). -/
def byteOperand (op : BitVec 8) : Prop :=
  op.toNat = 0x42 ∨ op.toNat = 0x43 ∨ op.toNat = 0x80 ∨ (0x91 ≤ op.toNat ∧ op.toNat ≤ 0x97)

/-- Instructions with a doubleword operand: LPSW (82). -/
def doubleOperand (op : BitVec 8) : Prop := op.toNat = 0x82

/-- EXECUTE (44). -/
def isExecute (op : BitVec 8) : Prop := op.toNat = 0x44

/-- The program interruption which the operand address `x` of an instruction must cause: 6
(specification) if it is not a multiple of the operand's length, 5 (addressing) if it is outside of
a storage of `lim` bytes.  Of an odd halfword address outside of storage the second is given. -/
def operandCheck (lim : Nat) (op : BitVec 8) (x : Nat) (c : BitVec 16) : Prop :=
  (wordOperand op ∧ x % 4 ≠ 0 ∧ c = 6) ∨ (wordOperand op ∧ x % 4 = 0 ∧ lim ≤ x ∧ c = 5) ∨
  (halfOperand op ∧ x < lim ∧ x % 2 ≠ 0 ∧ c = 6) ∨
  ((halfOperand op ∨ byteOperand op ∨ isExecute op ∨ (doubleOperand op ∧ x % 8 = 0)) ∧ lim ≤ x ∧ c = 5) ∨
  (doubleOperand op ∧ x % 8 ≠ 0 ∧ c = 6)

end Verif.S360

namespace Verif.Cpu50

open Verif.S360

theorem opr_exec {e : Env} {tk : Bool} {a : Arch} {s : S} (ho : EnvOk e) (h : Ready e tk a s)
    (hia : InStore e a) (hop : wordOperand (opOf a.inst)) : Ev e tk (Opr e tk a.next a.operand) s := by
  have h5 : (opOf a.inst).toNat / 16 = 5 ∨ ((opOf a.inst).toNat = 0x90 ∨ (opOf a.inst).toNat = 0x98) := by
    unfold wordOperand at hop; omega
  rcases h5 with h5 | h9
  · rw [next4 (by omega) (by omega), operand_rx (by omega)]
    exact Ev.bind (fetch_rx ho h (by omega) (by omega) hia.rg) fun s1 h1 => opr_rx ho h1 h5
  · rw [next4 (by omega) (by omega), operand_rs (by omega)]
    exact Ev.bind (fetch_rx ho h (by omega) (by omega) hia.rg) fun s1 h1 =>
      Ev.bind (to_op9 ho h1 (by omega)) fun s2 h2 => opr_rs ho h2 h9

theorem op4_exec {e : Env} {tk : Bool} {a : Arch} {s : S} (ho : EnvOk e) (h : Ready e tk a s)
    (hia : InStore e a) (hop : (opOf a.inst).toNat / 16 = 4) :
    Ev e tk (Op4 e tk a.next a.inst a.operand) s := by
  rw [next4 (by omega) (by omega), operand_rx (by omega)]
  exact Ev.bind (fetch_rx ho h (by omega) (by omega) hia.rg) fun s1 h1 => to_op4 ho h1 hop

theorem op8_exec {e : Env} {tk : Bool} {a : Arch} {s : S} (ho : EnvOk e) (h : Ready e tk a s)
    (hia : InStore e a) (hop : (opOf a.inst).toNat / 16 = 8) :
    Ev e tk (Op8 e tk a.next a.inst a.operand) s := by
  rw [next4 (by omega) (by omega), operand_rs (by omega)]
  exact Ev.bind (fetch_rx ho h (by omega) (by omega) hia.rg) fun s1 h1 => to_op8 ho h1 hop

theorem opb_exec {e : Env} {tk : Bool} {a : Arch} {s : S} (ho : EnvOk e) (h : Ready e tk a s)
    (hia : InStore e a) (hop : halfOperand (opOf a.inst) ∨ byteOperand (opOf a.inst) ∨ isExecute (opOf a.inst) ∨
      (doubleOperand (opOf a.inst) ∧ a.operand.toNat % 8 = 0)) :
    Ev e tk (Opb e tk a.next a.operand) s := by
  unfold halfOperand byteOperand isExecute doubleOperand at hop
  by_cases h4 : (opOf a.inst).toNat / 16 = 4
  · exact Ev.bind (op4_exec ho h hia h4) fun s1 h1 => opb_op4 ho h1 (by omega)
  by_cases h8 : (opOf a.inst).toNat / 16 = 8
  · exact Ev.bind (op8_exec ho h hia h8) fun s1 h1 => opb_op8 ho h1 (by omega)
  rw [next4 (by omega) (by omega), operand_rs (by omega)]
  exact Ev.bind (fetch_rx ho h (by omega) (by omega) hia.rg) fun s1 h1 =>
    Ev.bind (to_op9 ho h1 (by omega)) fun s2 h2 => opb_op9 ho h2 (by omega)

/-- C162: an operand address which is not a multiple of the operand's length, or is outside of
storage, causes a program interruption for specification or addressing, and nothing else: nothing
is changed but the old PSW at 28, with the code, and the PSW, loaded from 68. -/
theorem C162_operand_check {e : Env} {tk : Bool} {a b : Arch} {s : S} {c : BitVec 16} (ho : EnvOk e)
    (h : Ready e tk a s) (hia : InStore e a) (hk : a.Kept) (hm : 112 ≤ 4 * words e)
    (hc : operandCheck (4 * words e) (opOf a.inst) a.operand.toNat c)
    (hb : b = interrupt a.next 0x28 c 2) (hw : tk = false → Quiet a b) (hi : InStore e b)
    (tick : Nat → Bool) (ht : ∀ i, tick i = true → tk = true) :
    ∃ n s', run e tick n s = .ok s' ∧ (Ready e tk b s' ∨ Pend e tk b s') := by
  rcases hc with ⟨h1, h2, rfl⟩ | ⟨h1, h2, h3, rfl⟩ | ⟨h1, h2, h3, rfl⟩ | ⟨h1, h2, rfl⟩ | ⟨h1, h2, rfl⟩
  · exact ((opr_exec ho h hia h1).bind fun _ h => spec_exec ho h h2 hk hm hb hw hi).run tick ht
  · exact ((opr_exec ho h hia h1).bind fun _ h => addr_exec ho h h2 h3 hk hm hb hw hi).run tick ht
  · unfold halfOperand at h1
    exact ((op4_exec ho h hia (by omega)).bind fun _ h => odd_exec ho h h1 h2 h3 hk hm hb hw hi).run tick ht
  · exact ((opb_exec ho h hia h1).bind fun _ h => addr_run ho h.arch h.il h.im h.ib h.ud h.ms h.qt
      (by rw [h.sar]; exact h2) hk hm hb hw hi).run tick ht
  · unfold doubleOperand at h1
    exact ((op8_exec ho h hia (by omega)).bind fun _ h => dbl_exec ho h h1 h2 hk hm hb hw hi).run tick ht

theorem ros_747 : Cpu50.ros 0x747 = Cpu50.ros 0x1c2 := by decide +kernel

/-- Words 710 and 740 or 741 with an odd address. -/
theorem exodd_exec {e : Env} {tk : Bool} {a b : Arch} {i : BitVec 16} {x : W} {s : S} (ho : EnvOk e)
    (h : Op4 e tk a i x s) (hop : (opOf i).toNat = 0x44) (h7 : s.St.s7 = false)
    (he : x.toNat % 2 ≠ 0) (hl : x.toNat < 4 * words e) (hk : a.Kept) (hm : 112 ≤ 4 * words e)
    (hb : b = interrupt a 0x28 6 2) (hw : tk = false → Quiet a b) (hi : InStore e b) :
    Ev e tk (Bd e tk b) s := by
  have hro := h.roar
  rw [hop] at hro
  have hb1 := odd_bit h.l he
  refine Ev.wait (n := 0x710) ho h.ae.calm hro (by rw [w710]; decide) (by rw [w710]; decide)
    (fun tu sa ex => x710 e _ _) fun tu sa ex hex hc2 => ?_
  have hq := Req.mk' (i := i) ho h.ae h.fn h.md hl (s' := { s with
      timUp := tu, SDR := sdrAt s, SA := sa, ms := .w1,
      R := s.L, SAR := s.L &&& 16777215#32, alu := s.L, aob := s.L, u := 0#8, w := 0#8, BS := 15#4, EDST := 3#2,
      LSA := s.FN ++ s.J, St := { s.St with s3 := s.L &&& 2#32 != 0#32 }, initMem := true,
      ROAR := 1856 ||| 2 * s.St.s7.toNat + (s.MD == 0#4 || s.St.s7).toNat })
    rfl rfl rfl rfl hc2.qt rfl rfl rfl rfl rfl rfl rfl h.l
  by_cases hr : dig1 i = 0
  · refine Ev.acc (n := 0x741) ho hq.ask (by simp [h7, h.md, hr]) (by rw [w741]; decide) (fun t => x741 e _ _)
      fun t ht hc => ?_
    refine pgm_exec (n := 0x747) ho (begins6 ros_747) ⟨hc.congr (by unfold memPart; rfl), h.ae.arch⟩ h.il ?_ hk hm hb hw hi
    show 1860 ||| 2 * (s.L &&& 1#32 != 0#32).toNat + ((s.L &&& 2#32 != 0#32) || s.L &&& 1#32 != 0#32).toNat = _
    rw [hb1, Bool.or_true]; rfl
  · refine Ev.acc (n := 0x740) ho hq.ask
      (by simp [h7, h.md, show (dig1 i == 0#4) = false by simpa using hr]) (by rw [w740]; decide) (fun t => x740 e _ _)
      fun t ht hc => ?_
    refine pgm_exec (n := 0x747) ho (begins6 ros_747) ⟨hc.congr (by unfold memPart; rfl), h.ae.arch⟩ h.il ?_ hk hm hb hw hi
    show 1860 ||| 2 * (s.L &&& 1#32 != 0#32).toNat + ((s.L &&& 2#32 != 0#32) || s.L &&& 1#32 != 0#32).toNat = _
    rw [hb1, Bool.or_true]; rfl

/-- C162: EXECUTE of an odd address in storage causes a specification interruption; `h7` as for C160. -/
theorem C162_execute_odd {e : Env} {tk : Bool} {a b : Arch} {s : S} (ho : EnvOk e)
    (h : Ready e tk a s) (h7 : s.ROAR = 0x148 → s.St.s7 = false) (hia : InStore e a) (hk : a.Kept)
    (hm : 112 ≤ 4 * words e) (hop : isExecute (opOf a.inst))
    (hx : a.operand.toNat < 4 * words e) (hx2 : a.operand.toNat % 2 ≠ 0)
    (hb : b = interrupt a.next 0x28 6 2) (hw : tk = false → Quiet a b) (hi : InStore e b)
    (tick : Nat → Bool) (ht : ∀ i, tick i = true → tk = true) :
    ∃ n s', run e tick n s = .ok s' ∧ (Ready e tk b s' ∨ Pend e tk b s') := by
  have hex : (opOf a.inst).toNat = 0x44 := hop
  rw [next_ex hex] at hb
  refine Ev.run (P := Bd e tk b) (Ev.bind (fetch_rx7 (Z := True) ho h (by omega) (by omega) hia.rg fun h _ => h7 h)
    fun s1 h1 => Ev.bind (to_op40 ho h1.1 (by omega)) fun s2 h2 => ?_) tick ht
  rw [← operand_ex hex] at h2
  exact exodd_exec ho h2.1 hex (h2.2.1.trans (h1.2.2 trivial)) hx2 hx hk hm hb hw hi

/-- At 100 (hexadecimal): `w`; the new program PSW points to 200. -/
def opMem (w : W) (i : Nat) : W := if i = 64 then w else if i = 27 then 0x200 else 0

/-- LOAD of register 1 from 202, and then LOAD HALFWORD from 203: specification. -/
example (tick : Nat → Bool) : ∃ n s', run e64 tick n (start (opMem 0x58100202) 0 fun _ => 0) = .ok s' ∧
    ∃ b : Arch, (b.ia = 0x200 ∧ b.gr 1 = 0 ∧ b.mem 10 = 6 ∧ b.mem 11 = 0x80000104) ∧
      (Ready e64 true b s' ∨ Pend e64 true b s') := by
  obtain ⟨n, s', h1, h2⟩ := C162_operand_check (c := 6) (tk := true) e64_ok (start_ready true (opMem 0x58100202) 0 fun _ => 0)
    ⟨by decide, by decide⟩ (by unfold Arch.Kept; decide) (by decide)
    (.inl ⟨.inr (.inl (by decide)), by decide, rfl⟩) rfl (fun h => nomatch h)
    ⟨by decide, by decide⟩ tick (fun _ _ => rfl)
  exact ⟨n, s', h1, _, by decide, h2⟩

example (tick : Nat → Bool) : ∃ n s', run e64 tick n (start (opMem 0x48100203) 0 fun _ => 0) = .ok s' ∧
    ∃ b : Arch, (b.ia = 0x200 ∧ b.gr 1 = 0 ∧ b.mem 10 = 6 ∧ b.mem 11 = 0x80000104) ∧
      (Ready e64 true b s' ∨ Pend e64 true b s') := by
  obtain ⟨n, s', h1, h2⟩ := C162_operand_check (c := 6) (tk := true) e64_ok (start_ready true (opMem 0x48100203) 0 fun _ => 0)
    ⟨by decide, by decide⟩ (by unfold Arch.Kept; decide) (by decide)
    (.inr (.inr (.inl ⟨.inr (by decide), by decide, by decide, rfl⟩))) rfl (fun h => nomatch h)
    ⟨by decide, by decide⟩ tick (fun _ _ => rfl)
  exact ⟨n, s', h1, _, by decide, h2⟩

/-- EXECUTE of 205, and LOAD PSW from 204: specification. -/
example (tick : Nat → Bool) : ∃ n s', run e64 tick n (start (opMem 0x44100205) 0 fun _ => 0) = .ok s' ∧
    ∃ b : Arch, (b.ia = 0x200 ∧ b.mem 10 = 6 ∧ b.mem 11 = 0x80000104) ∧
      (Ready e64 true b s' ∨ Pend e64 true b s') := by
  obtain ⟨n, s', h1, h2⟩ := C162_execute_odd (tk := true) e64_ok (start_ready true (opMem 0x44100205) 0 fun _ => 0)
    (fun h => absurd h (by decide)) ⟨by decide, by decide⟩ (by unfold Arch.Kept; decide) (by decide)
    (by unfold isExecute; decide) (by decide) (by decide) rfl (fun h => nomatch h)
    ⟨by decide, by decide⟩ tick (fun _ _ => rfl)
  exact ⟨n, s', h1, _, by decide, h2⟩

example (tick : Nat → Bool) : ∃ n s', run e64 tick n (start (opMem 0x82000204) 0 fun _ => 0) = .ok s' ∧
    ∃ b : Arch, (b.ia = 0x200 ∧ b.mem 10 = 6 ∧ b.mem 11 = 0x80000104) ∧
      (Ready e64 true b s' ∨ Pend e64 true b s') := by
  obtain ⟨n, s', h1, h2⟩ := C162_operand_check (c := 6) (tk := true) e64_ok
    (start_ready true (opMem 0x82000204) 0 fun _ => 0)
    ⟨by decide, by decide⟩ (by unfold Arch.Kept; decide) (by decide)
    (.inr (.inr (.inr (.inr ⟨by unfold doubleOperand; decide, by decide, rfl⟩)))) rfl (fun h => nomatch h)
    ⟨by decide, by decide⟩ tick (fun _ _ => rfl)
  exact ⟨n, s', h1, _, by decide, h2⟩

/-- The same with 64K in register 2. -/
def startR : S :=
  { start (opMem 0x92ff2001) 0 (fun _ => 0) with LS := fun k => if k = 3#2 ++ 2#4 then 0x10000 else 0 }

/-- MOVE (immediate) to 10001, outside of 64K of storage: an addressing exception. -/
example (tick : Nat → Bool) : ∃ n s', run e64 tick n startR = .ok s' ∧
    ∃ b : Arch, (b.ia = 0x200 ∧ b.gr 2 = 0x10000 ∧ b.mem 10 = 5 ∧ b.mem 11 = 0x80000104) ∧
      (Ready e64 true b s' ∨ Pend e64 true b s') := by
  have hr : Ready e64 true { arch0 (opMem 0x92ff2001) 0 (fun _ => 0) with
      gr := fun r => if r = 2 then 0x10000 else 0 } startR := by
    refine .even ⟨rfl, rfl, rfl, ?_, (fun h => nomatch h), fun h => nomatch h⟩ ?_ (.inl rfl) ?_ ?_ ?_
    · show (0x100#32).toNat ≤ _
      decide
    · show (0#8).toNat < 16
      decide
    · have h1 : (fun r : BitVec 4 => startR.LS (3#2 ++ r)) = fun r => if r = 2 then (0x10000 : W) else 0 := by
        funext r
        show (if (3#2 ++ r : BitVec 6) = 3#2 ++ 2#4 then (0x10000 : W) else 0) = _
        revert r; decide
      have h2 : (fun r : BitVec 4 => startR.LS (2#2 ++ r)) = fun _ => (0 : W) := by
        funext r
        show (if (2#2 ++ r : BitVec 6) = 3#2 ++ 2#4 then (0x10000 : W) else 0) = _
        revert r; decide
      unfold archOf
      rw [h1, h2]
      rfl
    · show (0x100#32).toNat % 4 = 0
      decide
    · show (0x100#32).toNat / 4 = (0x100#32).toNat / 4
      rfl
  obtain ⟨n, s', h1, h2⟩ := C162_operand_check (c := 5) e64_ok hr
    ⟨by decide, by decide⟩ (by unfold Arch.Kept; decide) (by decide)
    (.inr (.inr (.inr (.inl ⟨.inr (.inl (by unfold byteOperand; decide)), by decide, rfl⟩)))) rfl (fun h => nomatch h)
    ⟨by decide, by decide⟩ tick (fun _ _ => rfl)
  exact ⟨n, s', h1, _, by decide, h2⟩

end Verif.Cpu50
