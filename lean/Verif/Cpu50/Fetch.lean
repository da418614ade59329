import Verif.Cpu50.Mem
import Verif.Cpu50.Isa
import Verif.Cpu50.Words1
import Verif.Cpu50.Bits

/-!
# Model 2050: instruction fetch

What the processor's registers are between two instructions (`Ready`), and what they are when
the first microinstruction of an operation begins (`Fet`).
-/

namespace Verif.Cpu50
open Verif.S360
attribute [local irreducible] ros

/-- The program visible part of the state. General registers are local storage 30-3f,
floating point registers 20-2f, the copy of the left half of the PSW is 17 (hexadecimal). -/
def archOf (s : S) : Arch :=
  { gr := fun r => s.LS (3#2 ++ r), fr := fun r => s.LS (2#2 ++ r), cc := s.CC, pm := s.PMASK,
    ia := s.IA, mem := s.mem, keys := s.MP, key := s.KEY, amwp := s.AMWP, mask := s.MASK,
    sys := s.LS 23#6 }

/-- Between two instructions: the word at `ROAR` is the first of the fetch of the instruction
at `a.ia`. -/
inductive Ready (e : Env) (tk : Bool) (a : Arch) (s : S) : Prop
  | odd (ask : Asks e tk s) (f : s.F.toNat < 16) (roar : s.ROAR = 0x148) (arch : archOf s = a)
      (ia : a.ia.toNat % 4 = 2) (l : s.L = a.mem (a.ia.toNat / 4))
      (syl : s.SYLS1 = (s.L &&& 0xc000#32 == 0#32)) (sar : s.SAR = a.ia + 2)
  | even (ask : Asks e tk s) (f : s.F.toNat < 16) (roar : s.ROAR = 0x14a ∨ s.ROAR = 0x146)
      (arch : archOf s = a) (ia : a.ia.toNat % 4 = 0) (sar : s.SAR.toNat / 4 = a.ia.toNat / 4)
  | again (ask : Asks e tk s) (f : s.F.toNat < 16) (roar : s.ROAR = 0x149 ∨ s.ROAR = 0x145)
      (arch : archOf s = a) (ia : a.ia.toNat % 4 = 2) (sar : s.SAR.toNat / 4 = a.ia.toNat / 4)
  | branch (ask : Asks e tk s) (f : s.F.toNat < 16) (roar : s.ROAR = 0x102)
      (arch : (archOf s).jump s.R = a) (ia : a.ia.toNat % 2 = 0)
      (sar : s.SAR = a.ia) (ud : s.updD = false) (s3 : s.St.s3 = (s.R &&& 2#32 != 0#32))

/-- First microinstruction of an operation: `a` is the program visible state with the address
of the next instruction, `i` the halfword with the operation code. -/
structure Fet (e : Env) (tk : Bool) (a : Arch) (i : BitVec 16) (s : S) : Prop where
  calm : Calm e tk s
  arch : archOf s = a
  fn : s.FN = 3
  bs : s.BS = 15
  f : s.F.toNat < 16
  iva : s.IVA = false
  mb : s.MB = 3
  lb : s.LB = 1
  g : s.G = 0
  g1 : s.G1NEG = false
  g2 : s.G2NEG = false
  j : s.J = dig2 i
  md : s.MD = dig1 i
  hi : nib s.M 7 = (opOf i).toNat / 16
  lo : nib s.M 6 = (opOf i).toNat % 16
  s0 : s.St.s0 = (dig2 i == 0)
  odd : a.ia.toNat % 4 = 2 → s.REFETCH = false → s.LS 30 = a.mem (a.ia.toNat / 4) ∧
    s.SYLS1 = (s.LS 30 &&& 0xc000#32 == 0#32)

/-- First microinstruction of an RR operation. -/
structure FetRR (e : Env) (tk : Bool) (a : Arch) (i : BitVec 16) (s : S) : Prop extends
    Fet e tk a i s where
  ilc : s.ILC = 1
  roar : ∃ b : Bool, s.ROAR = 0x100 ||| ((opOf i).toNat / 16) <<< 2 ||| b.toNat
  m1 : s.M.extractLsb' 16 16 = i

/-- First microinstruction of an RX, RS or SI operation; `i1` is the second halfword. -/
structure FetRX (e : Env) (tk : Bool) (a : Arch) (i i1 : BitVec 16) (s : S) : Prop extends
    Fet e tk a i s where
  ilc : s.ILC = 2
  d : s.M &&& 0xffff#32 = (i1.extractLsb' 0 12).setWidth 32
  l : s.L = a.gr (i1.extractLsb' 12 4)
  s1 : s.St.s1 = (i1.extractLsb' 12 4 == 0)
  roar : s.ROAR = 0x100 ||| ((opOf i).toNat / 16) <<< 2 |||
    2 * (s.St.s0 && decide ((opOf i).toNat / 64 = 1)).toNat + s.St.s1.toNat
  m1 : s.M.extractLsb' 16 16 = i

variable {Z : Prop}

/-- Before word 188; `S7` is off if `Z`. -/
structure Pre (e : Env) (tk : Bool) (Z : Prop) (a : Arch) (i i1 : BitVec 16) (s : S) : Prop where
  calm : Calm e tk s
  roar : s.ROAR = 0x188
  arch : archOf s = a
  fn : s.FN = 3
  rf : s.REFETCH = false
  f : s.F.toNat < 16
  iva : s.IVA = false
  mb : s.MB = 2
  lb : s.LB = 0
  g : s.G = 0
  g1 : s.G1NEG = false
  g2 : s.G2NEG = false
  j : s.J = dig2 i
  md : s.MD = i1.extractLsb' 12 4
  m1 : s.M.extractLsb' 16 16 = i
  m2 : s.M.extractLsb' 0 16 = i1
  s0 : s.St.s0 = (dig2 i == 0)
  s1 : s.St.s1 = (i1.extractLsb' 12 4 == 0)
  ilc : s.ILC = ilcOf s.M
  ls : s.LS 30 = a.mem ((a.ia.toNat + 2) / 4)
  syl : s.SYLS1 = (s.LS 30 &&& 0xc000#32 == 0#32)
  s7 : Z → s.St.s7 = false

theorem ia_add {a : W} {n : Nat} (h : a.toNat + 8 ≤ n) (hn : n ≤ 0x40000) :
    (a + 2#32).toNat = a.toNat + 2 ∧ (a + 4#32).toNat = a.toNat + 4 := by
  have h2 : (2#32).toNat = 2 := rfl
  have h4 : (4#32).toNat = 4 := rfl
  constructor
  · rw [BitVec.toNat_add, h2]; omega
  · rw [BitVec.toNat_add, h4]; omega

/-- Word 188 for RR. -/
theorem pre_rr {e : Env} {tk : Bool} {a : Arch} {i i1 : BitVec 16} {s : S} (ho : EnvOk e)
    (h : Pre e tk Z a i i1 s) (hop : (opOf i).toNat < 0x40) (hia : a.ia.toNat + 8 ≤ 4 * words e) :
    Ev e tk (FetRR e tk { a with ia := a.ia + 2 } i) s := by
  have hil : s.ILC = 1 := by rw [h.ilc]; exact ilcOf_rr h.m1 hop
  have hI := (ia_add hia (by have := ho.lim; omega)).1
  have hm : putByte s.M s.MB (byteOf s.M s.MB &&& 15#8) = s.M &&& 0xffff0fff#32 := by
    rw [h.mb]; exact clear_base _
  have hM : (s.M &&& 0xffff0fff#32).extractLsb' 16 16 = i := by rw [clear_hi, h.m1]
  have hrx : (s.M &&& 0xc0000000#32 == 0x40000000#32) = false := by
    rw [rxBits h.m1, decide_eq_false_iff_not]; omega
  refine Ev.plain ho h.calm h.roar (by rw [w188]; decide) (fun t => x188 e _ _)
    (fun t => by unfold memPart; rfl) fun t ht hc => .now ⟨⟨hc, ?_, h.fn, rfl, h.f, h.iva,
      ?_, ?_, h.g, h.g1, h.g2, h.j, ?_, ?_, ?_, h.s0, ?_⟩, hil, ?_, ?_⟩
  · have := h.arch
    subst this
    simp [bg, archOf, hil]
  · simp [bg, h.mb]
  · simp [bg, h.lb]
  · exact sw20 h.m1
  · simp only [bg, hm]; exact nib7 hM
  · simp only [bg, hm]; exact nib6 hM
  · intro h1 _
    refine ⟨?_, h.syl⟩
    show s.LS 30 = a.mem ((a.ia + 2#32).toNat / 4)
    rw [hI, h.ls]
  · refine ⟨s.St.s1, ?_⟩
    simp only [bg]
    rw [hrx, ← nib7 h.m1]; simp
  · simp only [bg, hm]; exact hM

/-- Word 188 for RX, RS and SI. -/
theorem pre_rx {e : Env} {tk : Bool} {a : Arch} {i i1 : BitVec 16} {s : S} (ho : EnvOk e)
    (h : Pre e tk Z a i i1 s) (hop : 0x40 ≤ (opOf i).toNat) (hop2 : (opOf i).toNat < 0xc0)
    (hia : a.ia.toNat + 8 ≤ 4 * words e) :
    Ev e tk (fun s => FetRX e tk { a with ia := a.ia + 4 } i i1 s ∧ s.REFETCH = false ∧
      (Z → s.St.s7 = false)) s := by
  have hil : s.ILC = 2 := by rw [h.ilc]; exact ilcOf_rx h.m1 hop hop2
  have hI := (ia_add hia (by have := ho.lim; omega)).2
  have hm : putByte s.M s.MB (byteOf s.M s.MB &&& 15#8) = s.M &&& 0xffff0fff#32 := by
    rw [h.mb]; exact clear_base _
  have hM : (s.M &&& 0xffff0fff#32).extractLsb' 16 16 = i := by rw [clear_hi, h.m1]
  refine Ev.plain ho h.calm h.roar (by rw [w188]; decide) (fun t => x188 e _ _)
    (fun t => by unfold memPart; rfl) fun t ht hc => .now ⟨⟨⟨hc, ?_, h.fn, rfl, h.f, h.iva,
      ?_, ?_, h.g, h.g1, h.g2, h.j, ?_, ?_, ?_, h.s0, ?_⟩, hil, ?_, ?_, h.s1, ?_, ?_⟩, h.rf, h.s7⟩
  · have := h.arch
    subst this
    simp [bg, archOf, hil]
  · simp [bg, h.mb]
  · simp [bg, h.lb]
  · exact sw20 h.m1
  · simp only [bg, hm]; exact nib7 hM
  · simp only [bg, hm]; exact nib6 hM
  · intro h1 _
    refine ⟨?_, h.syl⟩
    show s.LS 30 = a.mem ((a.ia + 4#32).toNat / 4)
    replace h1 : (a.ia + 4#32).toNat % 4 = 2 := h1
    rw [hI] at h1 ⊢
    rw [h.ls]; congr 1; omega
  · simp only [bg, hm]; rw [clear_lo, h.m2]
  · have := h.arch
    subst this
    simp [bg, archOf, h.fn, h.md]
  · simp only [bg]
    rw [← rxBits h.m1, ← nib7 h.m1]
  · simp only [bg, hm]; exact hM

/-- The second halfword of the instruction. -/
def Arch2 (a : Arch) : BitVec 16 := a.half (a.ia.toNat + 2)

/-- Storage read in the next storage cycle. -/
theorem acc_read (t : Bool) (s : S) : sdrAt (acc t s) = s.mem (s.SAR.toNat % 0x40000 / 4) := by
  simp only [sdrAt, acc, true_or, if_true]
  rw [← memIx_and]; rfl

theorem half_even {a : Arch} (h : a.ia.toNat % 4 = 0) :
    a.inst = (a.mem (a.ia.toNat / 4)).extractLsb' 16 16 ∧
    Arch2 a = (a.mem (a.ia.toNat / 4)).extractLsb' 0 16 := by
  have h1 : ¬ (a.ia.toNat + 2) % 4 = 0 := by omega
  have h2 : (a.ia.toNat + 2) / 4 = a.ia.toNat / 4 := by omega
  simp [Arch.inst, Arch2, Arch.half, h, h1, h2]

theorem half_odd {a : Arch} (h : a.ia.toNat % 4 = 2) :
    a.inst = (a.mem (a.ia.toNat / 4)).extractLsb' 0 16 ∧
    Arch2 a = (a.mem ((a.ia.toNat + 2) / 4)).extractLsb' 16 16 := by
  have h1 : (a.ia.toNat + 2) % 4 = 0 := by omega
  simp [Arch.inst, Arch2, Arch.half, h, h1]

theorem gr_ne30 : ∀ r : BitVec 4, (3#2 ++ r = 30#6) = False := by decide

theorem fr_ne30 : ∀ r : BitVec 4, (2#2 ++ r = 30#6) = False := by decide

theorem gr_eq : ∀ r q : BitVec 4, (3#2 ++ r = 3#2 ++ q) = (r = q) := by decide

theorem fr_eq : ∀ r q : BitVec 4, (2#2 ++ r = 3#2 ++ q) = False := by decide

/-- Before one of the words 14e, 1cc: the word with the instruction comes from storage. -/
structure Pre2 (e : Env) (tk : Bool) (a : Arch) (s : S) : Prop where
  calm : Calm e tk s
  arch : archOf s = a
  fn : s.FN = 3
  f : s.F.toNat < 16
  iva : s.IVA = false
  sdr : sdrAt s = a.mem (a.ia.toNat / 4)

/-- Word 14e. -/
theorem pre_14e {e : Env} {tk : Bool} {a : Arch} {s : S} (ho : EnvOk e) (h : Pre2 e tk a s)
    (roar : s.ROAR = 0x14e) (g : s.G = 0) (g1 : s.G1NEG = false)
    (g2 : s.G2NEG = false) (ia : a.ia.toNat % 4 = 0) :
    Ev e tk (Pre e tk Z a a.inst (Arch2 a)) s := by
  obtain ⟨hh1, hh2⟩ := half_even ia
  refine Ev.wait ho h.calm roar (by rw [w14e]; decide) (by rw [w14e]; decide)
      (fun tu sa ex => x14e e _ _) fun tu sa ex hex hc1 => .now ?_
  refine ⟨hc1.congr (by unfold memPart; rfl), rfl, ?_, h.fn, rfl, h.f, h.iva, rfl, rfl, g, g1, g2, ?_,
      ?_, ?_, ?_, ?_, ?_, rfl, ?_, ?_, fun _ => rfl⟩
  · rw [← h.arch]
    simp [archOf, lsPut, gr_ne30, fr_ne30]
  · simp only [h.sdr]; exact sw16 hh1.symm
  · simp only [h.sdr]; exact sw12 hh2.symm
  · simp only [h.sdr]; exact hh1.symm
  · simp only [h.sdr]; exact hh2.symm
  · simp only [h.sdr]; rw [sw16 hh1.symm]; rfl
  · simp only [h.sdr]; rw [sw12 hh2.symm]; rfl
  · simp only [h.sdr, lsPut]; simp; congr 1; omega
  · simp only [h.sdr, lsPut]; rw [syl12]; simp

/-- Word 1cc. -/
theorem pre_1cc {e : Env} {tk : Bool} {a : Arch} {s : S} (ho : EnvOk e) (h : Pre2 e tk a s)
    (roar : s.ROAR = 0x1cc) (mb : s.MB = 3) (lb : s.LB = 0) (r : s.R &&& 1#32 = 0#32)
    (ia : a.ia.toNat % 4 = 0) : Ev e tk (Pre e tk Z a a.inst (Arch2 a)) s := by
  obtain ⟨hh1, hh2⟩ := half_even ia
  refine Ev.wait ho h.calm roar (by rw [w1cc]; decide) (by rw [w1cc]; decide)
      (fun tu sa ex => x1cc e _ _) fun tu sa ex hex hc1 => .now ?_
  refine ⟨hc1.congr (by unfold memPart; rfl), ?_, ?_, h.fn, rfl, h.f, h.iva, ?_, lb, rfl, rfl, rfl, ?_,
      ?_, ?_, ?_, ?_, ?_, rfl, ?_, ?_, fun _ => rfl⟩
  · simp [r]
  · rw [← h.arch]
    simp [archOf, lsPut, gr_ne30, fr_ne30]
  · simp [mb]
  · simp only [h.sdr]; exact sw16 hh1.symm
  · simp only [h.sdr]; exact sw12 hh2.symm
  · simp only [h.sdr]; exact hh1.symm
  · simp only [h.sdr]; exact hh2.symm
  · simp only [h.sdr]; rw [sw16 hh1.symm]; rfl
  · simp only [h.sdr]; rw [sw12 hh2.symm]; rfl
  · simp only [h.sdr, lsPut]; simp; congr 1; omega
  · simp only [h.sdr, lsPut]; rw [syl12]; simp

/-- Before word 184: the second halfword comes from storage. -/
structure Pre3 (e : Env) (tk : Bool) (Z : Prop) (a : Arch) (s : S) : Prop where
  calm : Calm e tk s
  roar : s.ROAR = 0x184
  arch : archOf s = a
  fn : s.FN = 3
  rf : s.REFETCH = false
  f : s.F.toNat < 16
  iva : s.IVA = false
  mb : s.MB = 3
  lb : s.LB = 0
  j : s.J = dig2 a.inst
  m1 : s.M.extractLsb' 16 16 = a.inst
  s0 : s.St.s0 = (dig2 a.inst == 0)
  ilc : s.ILC = ilcOf s.M
  sdr : sdrAt s = a.mem ((a.ia.toNat + 2) / 4)
  s7 : Z → s.St.s7 = false

theorem ilcOf_mhl (m d : W) : ilcOf (m &&& 0xffff0000#32 ||| d >>> 16) = ilcOf m := by
  have h : (m &&& 0xffff0000#32 ||| d >>> 16) &&& 0xc0000000#32 = m &&& 0xc0000000#32 := by
    apply BitVec.eq_of_getLsbD_eq
    intro i hi
    interval_cases i <;> simp
  unfold ilcOf
  have h' : (m &&& 0xffff0000#32 ||| d >>> 16) &&& 0xc0000000 = m &&& 0xc0000000 := h
  rw [h']

/-- Word 184. -/
theorem pre_184 {e : Env} {tk : Bool} {a : Arch} {s : S} (ho : EnvOk e) (h : Pre3 e tk Z a s)
    (ia : a.ia.toNat % 4 = 2) : Ev e tk (Pre e tk Z a a.inst (Arch2 a)) s := by
  obtain ⟨hh1, hh2⟩ := half_odd ia
  refine Ev.wait ho h.calm h.roar (by rw [w184]; decide) (by rw [w184]; decide)
      (fun tu sa ex => x184 e _ _) fun tu sa ex hex hc1 => .now ?_
  refine ⟨hc1.congr (by unfold memPart; rfl), rfl, ?_, h.fn, h.rf, h.f, h.iva, ?_, h.lb, rfl, rfl, rfl, h.j,
      ?_, ?_, ?_, h.s0, ?_, ?_, ?_, ?_, h.s7⟩
  · rw [← h.arch]
    simp [archOf, lsPut, gr_ne30, fr_ne30]
  · simp [h.mb]
  · simp only [h.sdr]; exact sw28 hh2.symm
  · simp only [h.sdr]; rw [mhl_hi, h.m1]
  · simp only [h.sdr]; rw [mhl_lo]; exact hh2.symm
  · simp only [h.sdr]; rw [top4 hh2.symm]
  · simp only [h.sdr]; rw [ilcOf_mhl]; exact h.ilc
  · simp only [h.sdr, lsPut]; simp
  · simp only [h.sdr, lsPut]; simp

/-- Before word 189: an instruction in the right half of `L`. -/
structure Pre4 (e : Env) (tk : Bool) (a : Arch) (s : S) : Prop where
  calm : Calm e tk s
  roar : s.ROAR = 0x189
  arch : archOf s = a
  fn : s.FN = 3
  f : s.F.toNat < 16
  iva : s.IVA = false
  mb : s.MB = 3
  lb : s.LB = 1
  g : s.G = 0
  g1 : s.G1NEG = false
  g2 : s.G2NEG = false
  l : s.L = a.mem (a.ia.toNat / 4)
  syl : s.SYLS1 = (s.L &&& 0xc000#32 == 0#32)

/-- Words 189 and 19b. -/
theorem pre_189_rr {e : Env} {tk : Bool} {a : Arch} {s : S} (ho : EnvOk e) (h : Pre4 e tk a s)
    (ia : a.ia.toNat % 4 = 2) (hop : (opOf a.inst).toNat < 0x40)
    (hia : a.ia.toNat + 8 ≤ 4 * words e) :
    Ev e tk (FetRR e tk { a with ia := a.ia + 2 } a.inst) s := by
  obtain ⟨hh1, hh2⟩ := half_odd ia
  have hI := (ia_add hia (by have := ho.lim; omega)).1
  have hs : s.SYLS1 = true := by
    rw [h.syl, h.l, syl_rr hh1.symm]; exact decide_eq_true hop
  have hM : (s.L <<< 16).extractLsb' 16 16 = a.inst := by rw [shl16_hi, h.l]; exact hh1.symm
  refine Ev.plain ho h.calm h.roar (by rw [w189]; decide) (fun t => x189 e _ _)
    (fun t => by unfold memPart; rfl) fun t ht hc => ?_
  refine Ev.plain ho hc (n := 0x19b) (by simp [bg, hs]) (by rw [w19b]; decide)
    (fun t => x19b e _ _) (fun t => by unfold memPart; rfl) fun t1 ht1 hc1 => .now ?_
  have hil := ilcOf_rr hM hop
  exact
    { calm := hc1
      arch := by rw [← h.arch]; simp [archOf, bg, hil]
      fn := by dsimp only [bg]; exact h.fn
      bs := rfl
      f := by dsimp only [bg]; exact h.f
      iva := by dsimp only [bg]; exact h.iva
      mb := by dsimp only [bg]; exact h.mb
      lb := by dsimp only [bg]; exact h.lb
      g := by dsimp only [bg]; exact h.g
      g1 := by dsimp only [bg]; exact h.g1
      g2 := by dsimp only [bg]; exact h.g2
      j := by dsimp only [bg]; exact sw16 hM
      md := by dsimp only [bg]; exact sw20 hM
      hi := by dsimp only [bg]; exact nib7 hM
      lo := by dsimp only [bg]; exact nib6 hM
      s0 := by dsimp only [bg]; rw [sw16 hM]; rfl
      odd := by
        intro h1 _
        replace h1 : (a.ia + 2#32).toNat % 4 = 2 := h1
        omega
      ilc := by dsimp only [bg]; exact hil
      m1 := by dsimp only [bg]; exact hM
      roar := ⟨false, by dsimp only [bg]; rw [nib7 hM]; simp⟩ }

/-- Words 189, 199, 14d and 184. -/
theorem pre_189_rx {e : Env} {tk : Bool} {a : Arch} {s : S} (ho : EnvOk e) (h : Pre4 e tk a s)
    (ia : a.ia.toNat % 4 = 2) (hop : 0x40 ≤ (opOf a.inst).toNat)
    (hia : a.ia.toNat + 8 ≤ 4 * words e) :
    Ev e tk (Pre e tk Z a a.inst (Arch2 a)) s := by
  obtain ⟨hh1, hh2⟩ := half_odd ia
  have hI := (ia_add hia (by have := ho.lim; omega)).1
  have hs : s.SYLS1 = false := by
    rw [h.syl, h.l, syl_rr hh1.symm]; exact decide_eq_false (by omega)
  have hM : (s.L <<< 16).extractLsb' 16 16 = a.inst := by rw [shl16_hi, h.l]; exact hh1.symm
  have hia2 : s.IA = a.ia := by rw [← h.arch]; rfl
  have htop := ho.top
  have hlim := ho.lim
  have hle : ¬ e.memMax < s.IA + 2#32 := by rw [BitVec.lt_def, hia2]; omega
  refine Ev.plain ho h.calm h.roar (by rw [w189]; decide) (fun t => x189 e _ _)
    (fun t => by unfold memPart; rfl) fun t ht hc => ?_
  refine Ev.wait ho hc (n := 0x199) (by simp [bg, hs]) (by rw [w199]; decide)
    (by rw [w199]; decide) (fun tu sa ex => x199 e _ _) fun tu sa ex hex hc1 => ?_
  refine Ev.acc ho (n := 0x14d) ⟨?_, hc1.ib, rfl, ?_, ?_, hc1.qt⟩ rfl (by rw [w14d]; decide)
    (fun t => x14d e _ _) fun t2 ht2 hc2 => ?_
  · simp [bg, ifAddr, hle]
  · simp only [bg, ifAddr]
    show (s.IA + 2#32).toNat ≤ _
    rw [hia2]; omega
  · intro hu
    have := hc1.ud
    simp only at hu this
    rw [this] at hu; cases hu
  exact pre_184 (a := a) ho
    { calm := hc2.congr (by unfold memPart; rfl)
      roar := by simp [acc]
      arch := by rw [← h.arch]; simp [archOf, bg, acc]
      fn := by dsimp only [bg, acc]; exact h.fn
      rf := by dsimp only [bg, acc]; simp [h.calm.ud]
      f := by dsimp only [bg, acc]; exact h.f
      iva := rfl
      mb := by dsimp only [bg, acc]; exact h.mb
      lb := rfl
      j := by dsimp only [bg, acc]; exact sw16 hM
      m1 := by dsimp only [bg, acc]; exact hM
      s0 := by dsimp only [bg, acc]; rw [sw16 hM]; rfl
      ilc := rfl
      sdr := by
        simp only [sdrAt, bg, acc, ifAddr, true_or, if_true]
        show s.mem (memIx ((s.IA + 2#32) &&& 0x3ffff)) = _
        rw [memIx_and, hia2, hI, Nat.mod_eq_of_lt (by omega), ← h.arch]; rfl
      s7 := fun _ => rfl } ia

/-- Words 14c and 1ce. -/
theorem pre_14c {e : Env} {tk : Bool} {a : Arch} {s : S} (ho : EnvOk e) (h : Pre2 e tk a s)
    (roar : s.ROAR = 0x14c ∨ (s.ROAR = 0x1ce ∧ s.R &&& 1#32 = 0#32)) (mb : s.MB = 3)
    (lb : s.LB = 0) : Ev e tk (Pre4 e tk a) s := by
  rcases roar with roar | ⟨roar, hr⟩
  · refine Ev.wait ho h.calm roar (by rw [w14c]; decide) (by rw [w14c]; decide)
      (fun tu sa ex => x14c e _ _) fun tu sa ex hex hc1 => .now ?_
    refine ⟨hc1.congr (by unfold memPart; rfl), rfl, ?_, h.fn, h.f, h.iva, mb, ?_, rfl, rfl, rfl, h.sdr,
      rfl⟩
    · rw [← h.arch]; rfl
    · simp [lb]
  · refine Ev.wait ho h.calm roar (by rw [w1ce]; decide) (by rw [w1ce]; decide)
      (fun tu sa ex => x1ce e _ _) fun tu sa ex hex hc1 => .now ?_
    refine ⟨hc1.congr (by unfold memPart; rfl), ?_, ?_, h.fn, h.f, h.iva, mb, ?_, rfl, rfl, rfl, h.sdr,
      rfl⟩
    · simp [hr]
    · rw [← h.arch]; rfl
    · simp [lb]

theorem acc_pre2 {e : Env} {a : Arch} {s : S} (arch : archOf s = a)
    (hs : s.SAR.toNat / 4 = a.ia.toNat / 4) (hia : a.ia.toNat + 8 ≤ 4 * words e)
    (ho : EnvOk e) (t : Bool) : sdrAt (acc t s) = a.mem (a.ia.toNat / 4) := by
  have := ho.lim
  rw [acc_read, Nat.mod_eq_of_lt (by omega), hs, ← arch]; rfl

theorem and2_mod (r : W) : (r &&& 2#32 != 0#32) = decide (2 ≤ r.toNat % 4) := by
  have : r &&& 2#32 = BitVec.ofNat 32 (r.toNat / 2 % 2 * 2) := by
    have h : r &&& 2#32 = ((r >>> 1) <<< 31) >>> 30 := by
      apply BitVec.eq_of_getLsbD_eq
      intro i hi
      interval_cases i <;> simp
    rw [h]
    apply BitVec.eq_of_toNat_eq
    simp [Nat.shiftRight_eq_div_pow, Nat.shiftLeft_eq]; omega
  rw [this]
  rcases Nat.mod_two_eq_zero_or_one (r.toNat / 2) with h | h
  · rw [h]; simp; omega
  · rw [h]; simp; omega

theorem and1_mod (r : W) : (r &&& 1#32 = 0#32) ↔ r.toNat % 2 = 0 := by
  have : r &&& 1#32 = BitVec.ofNat 32 (r.toNat % 2) := by
    apply BitVec.eq_of_toNat_eq
    rw [BitVec.toNat_and]
    simp [Nat.and_one_is_mod]; omega
  rw [this]
  rcases Nat.mod_two_eq_zero_or_one r.toNat with h | h <;> rw [h] <;> simp

theorem and24 (r : W) : (r &&& 0xffffff#32).toNat = r.toNat % 0x1000000 := by
  rw [BitVec.toNat_and]; exact Nat.and_two_pow_sub_one_eq_mod r.toNat 24

/-- The fetch of an instruction which is not in the right half of `L` already, up to word 188
or word 189. -/
theorem fetch_store {e : Env} {tk : Bool} {a : Arch} {s : S} (ho : EnvOk e) (h : Ready e tk a s)
    (hn : s.ROAR ≠ 0x148) (hia : a.ia.toNat + 8 ≤ 4 * words e) :
    Ev e tk (fun s' => (a.ia.toNat % 4 = 0 ∧ Pre e tk Z a a.inst (Arch2 a) s') ∨
      (a.ia.toNat % 4 = 2 ∧ Pre4 e tk a s')) s := by
  cases h with
  | odd _ _ roar => exact absurd roar hn
  | even ask f roar arch ia sar =>
    have hsd := acc_pre2 arch sar hia ho
    refine Ev.bind ?_ fun s' h => .now (.inl ⟨ia, h⟩)
    rcases roar with roar | roar
    · refine Ev.acc ho ask roar (by rw [w14a]; decide) (fun t => x14a e _ _) fun t ht hc => ?_
      exact pre_14e ho ⟨hc.congr (by unfold memPart; rfl), by rw [← arch]; rfl, rfl, f, rfl,
        hsd t⟩ (by simp [acc]) rfl rfl rfl ia
    · refine Ev.acc ho ask roar (by rw [w146]; decide) (fun t => x146 e _ _) fun t ht hc => ?_
      exact pre_14e ho ⟨hc.congr (by unfold memPart; rfl), by rw [← arch]; rfl, rfl, f, rfl,
        hsd t⟩ (by simp [acc]) rfl rfl rfl ia
  | again ask f roar arch ia sar =>
    have hsd := acc_pre2 arch sar hia ho
    refine Ev.bind ?_ fun s' h => .now (.inr ⟨ia, h⟩)
    rcases roar with roar | roar
    · refine Ev.acc ho ask roar (by rw [w149]; decide) (fun t => x149 e _ _) fun t ht hc => ?_
      exact pre_14c ho ⟨hc.congr (by unfold memPart; rfl), by rw [← arch]; rfl, rfl, f, rfl,
        hsd t⟩ (.inl (by simp [acc])) rfl rfl
    · refine Ev.acc ho ask roar (by rw [w145]; decide) (fun t => x145 e _ _) fun t ht hc => ?_
      exact pre_14c ho ⟨hc.congr (by unfold memPart; rfl), by rw [← arch]; rfl, rfl, f, rfl,
        hsd t⟩ (.inl (by simp [acc])) rfl rfl
  | branch ask f roar arch ia sar ud s3 =>
    have hai : a.ia = s.R &&& 0xffffff#32 := by rw [← arch]; rfl
    have hai2 := and24 s.R
    rw [← hai] at hai2
    have hr1 : s.R &&& 1#32 = 0#32 := by rw [and1_mod]; omega
    have hlim := ho.lim
    have hsd : ∀ t, sdrAt (acc t s) = a.mem (a.ia.toNat / 4) := by
      intro t
      rw [acc_read, sar, Nat.mod_eq_of_lt (by omega), ← arch]; rfl
    rw [and2_mod] at s3
    have hp : ∀ (t : Bool) (s' : S), memPart s' = memPart (acc t s) → archOf s' = a →
        Calm e tk (acc t s) → s'.FN = 3 → s'.F = s.F → s'.IVA = false →
        sdrAt s' = sdrAt (acc t s) → Pre2 e tk a s' := fun t s' h1 h2 h3 h4 h5 h6 h7 =>
      ⟨h3.congr h1, h2, h4, by rw [h5]; exact f, h6, by rw [h7]; exact hsd t⟩
    have ha : archOf { s with IA := s.R &&& 16777215#32 } = a := by rw [← arch]; rfl
    have h4 : a.ia.toNat % 4 = 0 ∨ a.ia.toNat % 4 = 2 := by omega
    rcases h4 with h4 | h4
    · have hs3 : s.St.s3 = false := by rw [s3, decide_eq_false_iff_not]; omega
      refine Ev.bind ?_ fun s' h => .now (.inl ⟨h4, h⟩)
      refine Ev.acc ho ask roar (by rw [w102]; decide) (fun t => x102 e _ _) fun t ht hc => ?_
      refine pre_1cc ho (hp t _ (by unfold memPart; rfl) (by rw [← ha]; rfl) hc rfl rfl rfl rfl)
        (by simp [acc, hs3]) rfl rfl hr1 h4
    · have hs3 : s.St.s3 = true := by rw [s3, decide_eq_true_iff]; omega
      refine Ev.bind ?_ fun s' h => .now (.inr ⟨h4, h⟩)
      refine Ev.acc ho ask roar (by rw [w102]; decide) (fun t => x102 e _ _) fun t ht hc => ?_
      refine pre_14c ho (hp t _ (by unfold memPart; rfl) (by rw [← ha]; rfl) hc rfl rfl rfl rfl)
        (.inr ⟨by simp [acc, hs3], hr1⟩) rfl rfl

/-- The fetch of an RR instruction out of the right half of a buffered word `w`. -/
theorem fetch_buf_rr {e : Env} {tk : Bool} {a : Arch} {w : W} {s : S} (ho : EnvOk e)
    (ask : Asks e tk s) (f : s.F.toNat < 16) (roar : s.ROAR = 0x148) (arch : archOf s = a)
    (ia : a.ia.toNat % 4 = 2) (l : s.L = w) (syl : s.SYLS1 = (s.L &&& 0xc000#32 == 0#32))
    (hop : (opOf (w.extractLsb' 0 16)).toNat < 0x40) (hia : a.ia.toNat + 8 ≤ 4 * words e) :
    Ev e tk (FetRR e tk { a with ia := a.ia + 2 } (w.extractLsb' 0 16)) s := by
  have hI := (ia_add hia (by have := ho.lim; omega)).1
  have hs : s.SYLS1 = true := by
    rw [syl, l, syl_rr rfl]; exact decide_eq_true hop
  have hM : (s.L <<< 16).extractLsb' 16 16 = w.extractLsb' 0 16 := by rw [shl16_hi, l]
  have hil := ilcOf_rr hM hop
  refine Ev.acc ho ask roar (by rw [w148]; decide) (fun t => x148 e _ _) fun t ht hc => ?_
  refine Ev.plain ho (n := 0x187) (hc.congr (by unfold memPart; rfl)) (by simp [acc, hs])
    (by rw [w187]; decide) (fun t => x187 e _ _) (fun t => by unfold memPart; rfl)
    fun t1 ht1 hc1 => .now ?_
  exact
    { calm := hc1
      arch := by rw [← arch]; simp [archOf, bg, acc, hil]
      fn := rfl
      bs := rfl
      f := by dsimp only [bg, acc]; exact f
      iva := rfl
      mb := rfl
      lb := rfl
      g := rfl
      g1 := rfl
      g2 := rfl
      j := by dsimp only [bg]; exact sw16 hM
      md := by dsimp only [bg]; exact sw20 hM
      hi := by dsimp only [bg]; exact nib7 hM
      lo := by dsimp only [bg]; exact nib6 hM
      s0 := by dsimp only [bg, acc]; rw [sw16 hM]; rfl
      odd := by
        intro h1 _
        replace h1 : (a.ia + 2#32).toNat % 4 = 2 := h1
        omega
      ilc := by dsimp only [bg]; exact hil
      m1 := by dsimp only [bg]; exact hM
      roar := ⟨false, by dsimp only [bg, acc]; rw [nib7 hM]; simp⟩ }

/-- The fetch of an RR instruction. -/
theorem fetch_rr {e : Env} {tk : Bool} {a : Arch} {s : S} (ho : EnvOk e) (h : Ready e tk a s)
    (hop : (opOf a.inst).toNat < 0x40) (hia : a.ia.toNat + 8 ≤ 4 * words e) :
    Ev e tk (FetRR e tk { a with ia := a.ia + 2 } a.inst) s := by
  by_cases hr : s.ROAR = 0x148
  · cases h with
    | odd ask f roar arch ia l syl sar =>
      obtain ⟨hh1, hh2⟩ := half_odd ia
      rw [hh1] at hop ⊢
      exact fetch_buf_rr ho ask f roar arch ia l syl hop hia
    | even _ _ roar => omega
    | again _ _ roar => omega
    | branch _ _ roar => omega
  · refine (fetch_store (Z := False) ho h hr hia).bind fun s' h => ?_
    rcases h with ⟨h1, h2⟩ | ⟨h1, h2⟩
    · exact pre_rr ho h2 hop hia
    · exact pre_189_rr ho h2 h1 hop hia

/-- The fetch of an RX, RS or SI instruction; `S7` is off afterwards. -/
theorem fetch_rx7 {e : Env} {tk : Bool} {a : Arch} {s : S} (ho : EnvOk e) (h : Ready e tk a s)
    (hop : 0x40 ≤ (opOf a.inst).toNat) (hop2 : (opOf a.inst).toNat < 0xc0)
    (hia : a.ia.toNat + 8 ≤ 4 * words e) (hz : s.ROAR = 0x148 → Z → s.St.s7 = false) :
    Ev e tk (fun s => FetRX e tk { a with ia := a.ia + 4 } a.inst (Arch2 a) s ∧ s.REFETCH = false ∧
      (Z → s.St.s7 = false)) s := by
  by_cases hr : s.ROAR = 0x148
  · cases h with
    | odd ask f roar arch ia l syl sar =>
      obtain ⟨hh1, hh2⟩ := half_odd ia
      have hlim := ho.lim
      have hI := (ia_add hia (by omega)).1
      have hs : s.SYLS1 = false := by
        rw [syl, l, syl_rr hh1.symm]; exact decide_eq_false (by omega)
      have hM : (s.L <<< 16).extractLsb' 16 16 = a.inst := by rw [shl16_hi, l]; exact hh1.symm
      refine Ev.acc ho ask roar (by rw [w148]; decide) (fun t => x148 e _ _) fun t ht hc => ?_
      refine Ev.bind (P := Pre e tk Z a a.inst (Arch2 a)) ?_
        fun s' h => pre_rx ho h hop hop2 hia
      exact pre_184 (a := a) ho
        { calm := hc.congr (by unfold memPart; rfl)
          roar := by simp [acc, hs]
          arch := by rw [← arch]; simp [archOf, acc]
          fn := rfl
          rf := rfl
          f := f
          iva := rfl
          mb := rfl
          lb := rfl
          j := by dsimp only [acc]; exact sw16 hM
          m1 := by dsimp only [acc]; exact hM
          s0 := by dsimp only [acc]; rw [sw16 hM]; rfl
          ilc := rfl
          sdr := by
            simp only [sdrAt, acc, true_or, if_true]
            show s.mem (memIx (s.SAR &&& 0x3ffff)) = _
            rw [memIx_and, sar]
            show s.mem ((a.ia + 2#32).toNat % 0x40000 / 4) = _
            rw [hI, Nat.mod_eq_of_lt (by omega), ← arch]; rfl
          s7 := hz hr } ia
    | even _ _ roar => omega
    | again _ _ roar => omega
    | branch _ _ roar => omega
  · refine (fetch_store (Z := Z) ho h hr hia).bind fun s' h => ?_
    rcases h with ⟨h1, h2⟩ | ⟨h1, h2⟩
    · exact pre_rx ho h2 hop hop2 hia
    · exact (pre_189_rx ho h2 h1 hop hia).bind fun s' h => pre_rx ho h hop hop2 hia

/-- The fetch of an RX, RS or SI instruction. -/
theorem fetch_rx0 {e : Env} {tk : Bool} {a : Arch} {s : S} (ho : EnvOk e) (h : Ready e tk a s)
    (hop : 0x40 ≤ (opOf a.inst).toNat) (hop2 : (opOf a.inst).toNat < 0xc0)
    (hia : a.ia.toNat + 8 ≤ 4 * words e) :
    Ev e tk (fun s => FetRX e tk { a with ia := a.ia + 4 } a.inst (Arch2 a) s ∧ s.REFETCH = false) s :=
  (fetch_rx7 (Z := False) ho h hop hop2 hia fun _ h => h.elim).bind fun _ h => .now ⟨h.1, h.2.1⟩

theorem fetch_rx {e : Env} {tk : Bool} {a : Arch} {s : S} (ho : EnvOk e) (h : Ready e tk a s)
    (hop : 0x40 ≤ (opOf a.inst).toNat) (hop2 : (opOf a.inst).toNat < 0xc0)
    (hia : a.ia.toNat + 8 ≤ 4 * words e) :
    Ev e tk (FetRX e tk { a with ia := a.ia + 4 } a.inst (Arch2 a)) s :=
  (fetch_rx0 ho h hop hop2 hia).bind fun _ h => .now h.1

end Verif.Cpu50
