import Verif.Cpu50.Props
import Verif.Cpu50.Isa2
import Verif.Cpu50.Words9

/-!
# Model 2050: EXECUTE (C160)
-/

namespace Verif.S360

/-- The first halfword of the instruction at `x` as EXECUTE with the first register `r` carries it
out: its second byte is combined by OR with the low byte of the register, unless `r` is 0. -/
def Arch.subject (a : Arch) (r : BitVec 4) (x : Nat) : BitVec 16 :=
  a.half x ||| if r = 0 then 0 else ((a.gr r).extractLsb' 0 8).setWidth 16

/-- Carry out the RX, RS or SI instruction with the halfwords `i` and `i1`; the address of the next
instruction is in `a` already. -/
def perform (lim : Nat) (a : Arch) (i i1 : BitVec 16) : Option Arch :=
  if (opOf i).toNat < 0x40 then none
  else if (opOf i).toNat < 0x80 then
    rx lim a (opOf i) (dig1 i) (ea a (dig2 i) (i1.extractLsb' 12 4) (i1.extractLsb' 0 12))
  else if (opOf i).toNat < 0x90 then
    rs a (opOf i) (dig1 i) (dig2 i) (ea a 0 (i1.extractLsb' 12 4) (i1.extractLsb' 0 12))
  else if (opOf i).toNat < 0xc0 then
    si lim a (opOf i) (immOf i) (ea a 0 (i1.extractLsb' 12 4) (i1.extractLsb' 0 12))
  else none

/-- It is what `step` does with the instruction at the instruction address. -/
theorem step_perform (lim : Nat) (a : Arch) (h : 0x40 ≤ (opOf a.inst).toNat) :
    step lim a = perform lim { a with ia := a.ia + 4 } a.inst (a.half (a.ia.toNat + 2)) := by
  unfold step perform
  rw [if_neg (Nat.not_lt.2 h), if_neg (Nat.not_lt.2 h)]
  rfl

end Verif.S360

namespace Verif.Cpu50
open Verif.S360
attribute [local irreducible] ros

/-! ### Bits -/

theorem or_byte (w : W) (b : B) :
    (putByte w 1#2 (mvfL 1#3 b (byteOf w 1#2) ||| mvfR 1#3 b (byteOf w 1#2))).extractLsb' 16 16 =
      w.extractLsb' 16 16 ||| b.setWidth 16 ∧
    (putByte w 1#2 (mvfL 1#3 b (byteOf w 1#2) ||| mvfR 1#3 b (byteOf w 1#2))).extractLsb' 0 16 =
      w.extractLsb' 0 16 := by
  have h : mvfL 1#3 b (byteOf w 1#2) ||| mvfR 1#3 b (byteOf w 1#2) = byteOf w 1#2 ||| b := by
    generalize byteOf w 1#2 = v
    show ((v ||| b) &&& 0xf0#8) ||| ((v ||| b) &&& 0x0f#8) = v ||| b
    apply BitVec.eq_of_getLsbD_eq
    intro i hi
    interval_cases i <;> simp
  rw [h]
  show (((w &&& ~~~(0xff#32 <<< 16)) ||| (((w >>> 16).setWidth 8 ||| b).setWidth 32 <<< 16))).extractLsb' 16 16 =
      w.extractLsb' 16 16 ||| b.setWidth 16 ∧
    (((w &&& ~~~(0xff#32 <<< 16)) ||| (((w >>> 16).setWidth 8 ||| b).setWidth 32 <<< 16))).extractLsb' 0 16 =
      w.extractLsb' 0 16
  constructor
  · apply BitVec.eq_of_getLsbD_eq
    intro i hi
    interval_cases i <;> simp [BitVec.getLsbD_setWidth, BitVec.getLsbD_extractLsb']
  · apply BitVec.eq_of_getLsbD_eq
    intro i hi
    interval_cases i <;> simp [BitVec.getLsbD_extractLsb']

/-- The two digits of a byte put together again. -/
theorem two_digits (b : B) :
    BitVec.setWidth 8 (BitVec.setWidth 4 (b >>> 4)) <<< 4 ||| (b &&& 15#8) = b := by
  apply BitVec.eq_of_getLsbD_eq
  intro i hi
  interval_cases i <;> simp

theorem byte2_md (m : W) :
    BitVec.setWidth 4 ((byteOf m 2#2 &&& 240#8) >>> 4) = BitVec.setWidth 4 (m >>> 12) := by
  show BitVec.setWidth 4 (((m >>> 8).setWidth 8 &&& 240#8) >>> 4) = _
  apply BitVec.eq_of_getLsbD_eq
  intro i hi
  interval_cases i <;> simp

theorem byte3_low (w : W) : byteOf w 3#2 = w.extractLsb' 0 8 := by
  show (w >>> 0).setWidth 8 = _
  apply BitVec.eq_of_getLsbD_eq
  intro i hi
  interval_cases i <;> simp

theorem s0_bit {m : W} {i : BitVec 16} (h : m.extractLsb' 16 16 = i) :
    (m &&& 983040#32 == 0#32) = (dig2 i == 0) := by
  rw [← sw16 h]
  have h1 : m &&& 983040#32 = (BitVec.setWidth 4 (m >>> 16)).setWidth 32 <<< 16 := by
    apply BitVec.eq_of_getLsbD_eq
    intro i hi
    interval_cases i <;> simp
  rw [h1]
  generalize BitVec.setWidth 4 (m >>> 16) = d
  revert d; decide

theorem top_digit {m : W} {i : BitVec 16} (h : m.extractLsb' 16 16 = i) (hop : 0x40 ≤ (opOf i).toNat) :
    (m &&& 4026531840#32 == 0#32) = false := by
  rw [top4 h]
  have h1 : (i.extractLsb' 12 4).toNat = (opOf i).toNat / 16 := by
    simp only [opOf, BitVec.extractLsb'_toNat, Nat.shiftRight_eq_div_pow]
    have := i.isLt
    omega
  rw [beq_eq_false_iff_ne]
  intro h2
  rw [h2] at h1
  replace h1 : 0 = (opOf i).toNat / 16 := h1
  omega

/-! ### The words -/

/-- First microinstruction of an instruction which is executed; `v` is in the place of the base,
which is left out if `z`. -/
structure FetB (e : Env) (tk : Bool) (a : Arch) (i i1 : BitVec 16) (v : W) (z : Bool) (s : S) : Prop extends
    Fet e tk a i s where
  ilc : s.ILC = 2
  d : s.M &&& 0xffff#32 = (i1.extractLsb' 0 12).setWidth 32
  l : s.L = v
  s1 : s.St.s1 = z
  roar : s.ROAR = 0x100 ||| ((opOf i).toNat / 16) <<< 2 |||
    2 * (s.St.s0 && decide ((opOf i).toNat / 64 = 1)).toNat + s.St.s1.toNat
  m1 : s.M.extractLsb' 16 16 = i
  s7 : s.St.s7 = true

theorem FetB.rx {e : Env} {tk : Bool} {a : Arch} {i i1 : BitVec 16} {z : Bool} {s : S}
    (h : FetB e tk a i i1 (a.gr (i1.extractLsb' 12 4)) z s) (hz : z = (i1.extractLsb' 12 4 == 0)) :
    FetRX e tk a i i1 s :=
  ⟨h.toFet, h.ilc, h.d, h.l, h.s1.trans hz, h.roar, h.m1⟩

/-- Before word 756. -/
structure Sbj (e : Env) (tk : Bool) (a : Arch) (i i1 : BitVec 16) (z : Bool) (s : S) : Prop where
  calm : Calm e tk s
  roar : s.ROAR = 0x756
  arch : archOf s = a
  fn : s.FN = 3
  bs : s.BS = 15
  f : s.F.toNat < 16
  iva : s.IVA = false
  mb : s.MB = 2
  lb : s.LB = 0
  g : s.G = 0
  g1 : s.G1NEG = false
  g2 : s.G2NEG = false
  il : s.ILC = 2
  j : s.J = dig2 i
  md : s.MD = i1.extractLsb' 12 4
  m1 : s.M.extractLsb' 16 16 = i
  m2 : s.M.extractLsb' 0 16 = i1
  s0 : s.St.s0 = (dig2 i == 0)
  s1 : s.St.s1 = z
  s7 : s.St.s7 = true

theorem Sbj.fet {e : Env} {tk : Bool} {a : Arch} {i i1 : BitVec 16} {z : Bool} {s : S} (ho : EnvOk e)
    (h : Sbj e tk a i i1 z s) : Ev e tk (FetB e tk a i i1 (a.gr (i1.extractLsb' 12 4)) z) s := by
  have hm : putByte s.M s.MB (byteOf s.M s.MB &&& 15#8) = s.M &&& 0xffff0fff#32 := by
    rw [h.mb]; exact clear_base _
  have hM : (s.M &&& 0xffff0fff#32).extractLsb' 16 16 = i := by rw [clear_hi, h.m1]
  refine Ev.plain ho h.calm h.roar (by rw [w756]; decide) (fun t => x756 e _ _)
    (fun t => by unfold memPart; rfl) fun t ht hc => .now ?_
  exact
    { calm := hc
      arch := by rw [← h.arch]; rfl
      fn := h.fn
      bs := h.bs
      f := h.f
      iva := h.iva
      mb := by simp [bg, h.mb]
      lb := by simp [bg, h.lb]
      g := h.g
      g1 := h.g1
      g2 := h.g2
      j := h.j
      md := sw20 h.m1
      hi := by simp only [bg, hm]; exact nib7 hM
      lo := by simp only [bg, hm]; exact nib6 hM
      s0 := h.s0
      odd := fun _ h => nomatch h
      ilc := h.il
      d := by simp only [bg, hm]; rw [clear_lo, h.m2]
      l := by
        show s.LS (s.FN ++ s.MD) = _
        rw [h.fn, h.md, ← h.arch]; rfl
      s1 := h.s1
      roar := by simp only [bg]; rw [← rxBits h.m1, ← nib7 h.m1]
      m1 := by simp only [bg, hm]; exact hM
      s7 := h.s7 }

/-- Words 740 and 741 have been carried out, the word at `x` is being read. -/
structure Exd (e : Env) (tk : Bool) (a : Arch) (r : BitVec 4) (x : W) (s : S) : Prop where
  calm : Calm e tk s
  arch : archOf s = a
  fn : s.FN = 3
  bs : s.BS = 15
  iva : s.IVA = false
  mb : s.MB = 1
  lb : s.LB = 3
  g : s.G = 0
  g1 : s.G1NEG = false
  g2 : s.G2NEG = false
  il : s.ILC = 2
  rr : s.R &&& 16777215#32 = x
  l : byteOf s.L s.LB = if r = 0 then 0 else (a.gr r).extractLsb' 0 8
  mvf : s.mvf = 1
  sdr : sdrAt s = a.mem (x.toNat / 4)
  roar : s.ROAR = 1860 ||| (x.toNat % 4 / 2)

theorem odd1 {r x : W} (h : r &&& 16777215#32 = x) (he : x.toNat % 2 = 0) :
    (r &&& 1#32 != 0#32) = false := by
  have h1 : r &&& 1#32 = x &&& 1#32 := by
    rw [← h, BitVec.and_assoc]; rfl
  rw [h1]
  have h2 := (and1_mod x).2 he
  rw [h2]; rfl

theorem odd2 {r x : W} (h : r &&& 16777215#32 = x) :
    (r &&& 2#32 != 0#32) = decide (2 ≤ x.toNat % 4) := by
  have h1 : r &&& 2#32 = x &&& 2#32 := by
    rw [← h, BitVec.and_assoc]; rfl
  rw [h1, and2_mod]

/-- Words 710 and 740 or 741. -/
theorem ex_ask {e : Env} {tk : Bool} {a : Arch} {i : BitVec 16} {x : W} {s : S} (ho : EnvOk e)
    (h : Op4 e tk a i x s) (hop : (opOf i).toNat = 0x44) (h7 : s.St.s7 = false)
    (hx : x.toNat % 2 = 0) (hl : x.toNat < 4 * words e) : Ev e tk (Exd e tk a (dig1 i) x) s := by
  have hro := h.roar
  rw [hop] at hro
  have hb1 := odd1 h.l hx
  have hb2 := odd2 h.l
  have h4 : x.toNat % 4 = 0 ∨ x.toNat % 4 = 2 := by omega
  refine Ev.wait (n := 0x710) ho h.ae.calm hro (by rw [w710]; decide) (by rw [w710]; decide)
    (fun tu sa ex => x710 e _ _) fun tu sa ex hex hc2 => ?_
  have hq := Req.mk' (i := i) ho h.ae h.fn h.md hl (s' := { s with
      timUp := tu, SDR := sdrAt s, SA := sa, ms := .w1,
      R := s.L, SAR := s.L &&& 16777215#32, alu := s.L, aob := s.L, u := 0#8, w := 0#8, BS := 15#4, EDST := 3#2,
      LSA := s.FN ++ s.J, St := { s.St with s3 := s.L &&& 2#32 != 0#32 }, initMem := true,
      ROAR := 1856 ||| 2 * s.St.s7.toNat + (s.MD == 0#4 || s.St.s7).toNat })
    rfl rfl rfl rfl hc2.qt rfl rfl rfl rfl rfl rfl rfl h.l
  have hsd := sdr_acc ho hq.ask
  have hsd2 : ∀ t, _ = a.mem (x.toNat / 4) := fun t => (hsd t).trans (by
    show s.mem ((s.L &&& 16777215#32).toNat / 4) = _
    rw [h.l, ← h.ae.arch]; rfl)
  by_cases hr : dig1 i = 0
  · refine Ev.acc (n := 0x741) ho hq.ask (by simp [h7, h.md, hr]) (by rw [w741]; decide) (fun t => x741 e _ _)
      fun t ht hc => .now ?_
    refine ⟨hc.congr (by unfold memPart; rfl), ?_, h.fn, rfl, rfl, rfl, rfl, h.g, h.g1, h.g2, h.il, h.l, ?_, rfl,
      hsd2 t, ?_⟩
    · rw [← h.ae.arch]; rfl
    · rw [if_pos hr]; rfl
    · show 1860 ||| 2 * (s.L &&& 1#32 != 0#32).toNat + ((s.L &&& 2#32 != 0#32) || s.L &&& 1#32 != 0#32).toNat = _
      rw [hb1, hb2]
      rcases h4 with h4 | h4 <;> rw [h4] <;> rfl
  · refine Ev.acc (n := 0x740) ho hq.ask
      (by simp [h7, h.md, show (dig1 i == 0#4) = false by simpa using hr]) (by rw [w740]; decide) (fun t => x740 e _ _)
      fun t ht hc => .now ?_
    refine ⟨hc.congr (by unfold memPart; rfl), ?_, h.fn, rfl, rfl, rfl, rfl, h.g, h.g1, h.g2, h.il, h.l, ?_, rfl,
      hsd2 t, ?_⟩
    · rw [← h.ae.arch]; rfl
    · rw [if_neg hr]
      show byteOf (s.LS (s.FN ++ s.MD)) 3#2 = _
      rw [byte3_low, h.fn, h.md, ← h.ae.arch]; rfl
    · show 1860 ||| 2 * (s.L &&& 1#32 != 0#32).toNat + ((s.L &&& 2#32 != 0#32) || s.L &&& 1#32 != 0#32).toNat = _
      rw [hb1, hb2]
      rcases h4 with h4 | h4 <;> rw [h4] <;> rfl

theorem subject_even {a : Arch} {r : BitVec 4} {x : Nat} (h : x % 4 = 0) :
    a.subject r x = (a.mem (x / 4)).extractLsb' 16 16 |||
      (if r = 0 then 0 else (a.gr r).extractLsb' 0 8 : B).setWidth 16 ∧
    a.half (x + 2) = (a.mem (x / 4)).extractLsb' 0 16 := by
  have h1 : ¬ (x + 2) % 4 = 0 := by omega
  have h2 : (x + 2) / 4 = x / 4 := by omega
  constructor
  · unfold Arch.subject
    rw [show a.half x = _ from if_pos h]
    split <;> rfl
  · unfold Arch.half
    rw [if_neg h1, h2]

theorem subject_odd {a : Arch} {r : BitVec 4} {x : Nat} (h : x % 4 = 2) :
    a.subject r x = (a.mem (x / 4)).extractLsb' 0 16 |||
      (if r = 0 then 0 else (a.gr r).extractLsb' 0 8 : B).setWidth 16 ∧
    a.half (x + 2) = (a.mem ((x + 2) / 4)).extractLsb' 16 16 := by
  have h1 : (x + 2) % 4 = 0 := by omega
  constructor
  · unfold Arch.subject
    rw [show a.half x = _ from if_neg (by omega)]
    split <;> rfl
  · unfold Arch.half
    rw [if_pos h1]

attribute [local irreducible] putByte byteOf mvfL mvfR sdrAt

/-- Words 744, 74a and 752: the instruction at a word boundary. The base is never left out. -/
theorem ex_even {e : Env} {tk : Bool} {a : Arch} {r : BitVec 4} {x : W} {s : S} {z : Bool} (ho : EnvOk e)
    (h : Exd e tk a r x s) (h4 : x.toNat % 4 = 0)
    (hz : ∀ m : W, m.extractLsb' 16 16 = a.subject r x.toNat → (m &&& 0xf0000000#32 == 0#32) = z) :
    Ev e tk (Sbj e tk a (a.subject r x.toNat) (a.half (x.toNat + 2)) z) s := by
  obtain ⟨hi1, hi2⟩ := subject_even (a := a) (r := r) h4
  have hro := h.roar
  rw [h4] at hro
  obtain ⟨ho1, ho2⟩ := or_byte (sdrAt s) (byteOf s.L s.LB)
  rw [h.sdr, h.l, ← hi1] at ho1
  rw [h.sdr, ← hi2] at ho2
  refine Ev.wait (n := 0x744) ho h.calm hro (by rw [w744]; decide) (by rw [w744]; decide)
    (fun tu sa ex => x744 e _ _) fun tu sa ex hex hc1 => ?_
  refine Ev.plain (n := 0x74a) ho (hc1.congr (by unfold memPart; rfl)) rfl (by rw [w74a]; decide) (fun t => x74a e _ _)
    (fun t => by unfold memPart; rfl) fun t2 ht2 hc2 => ?_
  refine Ev.plain (n := 0x752) ho hc2 rfl (by rw [w752]; decide) (fun t => x752 e _ _)
    (fun t => by unfold memPart; rfl) fun t3 ht3 hc3 => .now ?_
  have hM : ∀ m : W, m = putByte (sdrAt s) s.MB (mvfL s.mvf (BitVec.setWidth 8
      (BitVec.setWidth 4 (byteOf s.L s.LB >>> 4)) <<< 4 ||| (byteOf s.L s.LB &&& 15#8)) (byteOf (sdrAt s) s.MB) |||
      mvfR s.mvf (BitVec.setWidth 8 (BitVec.setWidth 4 (byteOf s.L s.LB >>> 4)) <<< 4 |||
        (byteOf s.L s.LB &&& 15#8)) (byteOf (sdrAt s) s.MB)) →
      m.extractLsb' 16 16 = a.subject r x.toNat ∧ m.extractLsb' 0 16 = a.half (x.toNat + 2) := by
    intro m hm
    rw [two_digits, h.mb, h.mvf, h.sdr, h.l] at hm
    subst hm
    rw [h.l] at ho2
    exact ⟨ho1, ho2⟩
  have hM1 := (hM _ rfl).1
  have hM2 := (hM _ rfl).2
  exact
    { calm := hc3
      roar := rfl
      arch := by rw [← h.arch]; rfl
      fn := h.fn
      bs := h.bs
      f := and15_lt _
      iva := h.iva
      mb := by simp only [bg, h.mb]; rfl
      lb := rfl
      g := h.g
      g1 := h.g1
      g2 := h.g2
      il := h.il
      j := sw16 hM1
      md := by
        have : s.MB + 1#2 = 2#2 := by rw [h.mb]; rfl
        simp only [bg, this]
        rw [byte2_md]
        exact sw12 hM2
      m1 := hM1
      m2 := hM2
      s0 := s0_bit hM1
      s1 := hz _ hM1
      s7 := rfl }

/-- Words 745, 784, 701, 78a and 796: the instruction at a halfword boundary. -/
theorem ex_odd {e : Env} {tk : Bool} {a : Arch} {r : BitVec 4} {x : W} {s : S} (ho : EnvOk e)
    (h : Exd e tk a r x s) (h4 : x.toNat % 4 = 2) (hl : x.toNat + 4 ≤ 4 * words e)
    (hop : 0x40 ≤ (opOf (a.half x.toNat)).toNat) :
    Ev e tk (Sbj e tk a (a.subject r x.toNat) (a.half (x.toNat + 2))
      ((a.half (x.toNat + 2)).extractLsb' 12 4 == 0)) s := by
  obtain ⟨hi1, hi2⟩ := subject_odd (a := a) (r := r) h4
  have hro := h.roar
  rw [h4] at hro
  have htop := ho.top
  have hlim := ho.lim
  have hsy : (sdrAt s &&& 49152#32 == 0#32) = false := by
    rw [h.sdr]
    have h1 : (a.mem (x.toNat / 4)).extractLsb' 0 16 = a.half x.toNat := (if_neg (by omega)).symm
    rw [syl_rr h1]; exact decide_eq_false (by omega)
  have h44 : (4#32 + s.R &&& 16777215#32).toNat = x.toNat + 4 := by
    have h5 := congrArg BitVec.toNat h.rr
    rw [BitVec.toNat_and] at h5
    rw [show (16777215#32).toNat = 2 ^ 24 - 1 from rfl, Nat.and_two_pow_sub_one_eq_mod] at h5
    rw [BitVec.toNat_and, show (16777215#32).toNat = 2 ^ 24 - 1 from rfl, Nat.and_two_pow_sub_one_eq_mod,
      BitVec.toNat_add, show (4#32).toNat = 4 from rfl]
    omega
  have hM0 : ∀ m : W, m = putByte (sdrAt s <<< 16) s.MB (mvfL s.mvf (BitVec.setWidth 8
      (BitVec.setWidth 4 (byteOf s.L s.LB >>> 4)) <<< 4 ||| (byteOf s.L s.LB &&& 15#8)) (byteOf (sdrAt s <<< 16) s.MB) |||
      mvfR s.mvf (BitVec.setWidth 8 (BitVec.setWidth 4 (byteOf s.L s.LB >>> 4)) <<< 4 |||
        (byteOf s.L s.LB &&& 15#8)) (byteOf (sdrAt s <<< 16) s.MB)) →
      m.extractLsb' 16 16 = a.subject r x.toNat := by
    intro m hm
    rw [two_digits, h.mb, h.mvf, h.sdr, h.l] at hm
    subst hm
    rw [hi1, ← shl16_hi]
    exact (or_byte _ _).1
  refine Ev.wait (n := 0x745) ho h.calm hro (by rw [w745]; decide) (by rw [w745]; decide)
    (fun tu sa ex => x745 e _ _) fun tu sa ex hex hc1 => ?_
  refine Ev.plain (n := 0x784) ho (hc1.congr (by unfold memPart; rfl)) rfl (by rw [w784]; decide) (fun t => x784 e _ _)
    (fun t => by unfold memPart; rfl) fun t2 ht2 hc2 => ?_
  refine Ev.wait (n := 0x701) ho hc2 (by simp only [bg, hsy]; rfl) (by rw [w701]; decide) (by rw [w701]; decide)
    (fun tu sa ex => x701 e _ _) fun tu3 sa3 ex3 hex3 hc3 => ?_
  refine Ev.acc (n := 0x78a) ho ⟨rfl, hc3.ib, rfl, ?_, ?_, hc3.qt⟩ rfl (by rw [w78a]; decide)
    (fun t => x78a e _ _) fun t4 ht4 hc4 => ?_
  · show (4#32 + s.R &&& 16777215#32).toNat ≤ _
    omega
  · intro hu
    have := hc3.ud
    rw [show _ = true from hu] at this
    exact nomatch this
  refine Ev.wait (n := 0x796) ho (hc4.congr (by unfold memPart; rfl)) rfl (by rw [w796]; decide) (by rw [w796]; decide)
    (fun tu sa ex => x796 e _ _) fun tu5 sa5 ex5 hex5 hc5 => .now ?_
  have hD : ∀ S4 : S, S4.ms = .r1 → S4.bump = false → S4.mem = s.mem →
      S4.SA = (4#32 + s.R &&& 16777215#32) &&& 0x3ffff →
      (sdrAt S4).extractLsb' 16 16 = a.half (x.toNat + 2) := by
    intro S4 h1 h2 h3 h5
    have h6 : sdrAt S4 = s.mem ((x.toNat + 4) / 4) := by
      simp only [sdrAt, h1, h2, h3, h5, true_or, if_true, Bool.false_eq_true, if_false]
      rw [memIx_and, h44, Nat.mod_eq_of_lt (by omega)]
    rw [h6, hi2, show (x.toNat + 4) / 4 = (x.toNat + 2) / 4 by omega, ← h.arch]
    rfl
  have hM1 := hM0 _ rfl
  exact
    { calm := hc5.congr (by unfold memPart; rfl)
      roar := rfl
      arch := by
        rw [← h.arch]
        simp [archOf, lsPut, gr_ne30, fr_ne30, acc, bg]
      fn := h.fn
      bs := h.bs
      f := and15_lt _
      iva := rfl
      mb := rfl
      lb := rfl
      g := h.g
      g1 := h.g1
      g2 := h.g2
      il := h.il
      j := sw16 hM1
      md := sw28 (hD _ rfl rfl rfl rfl)
      m1 := (mhl_hi _ _).trans hM1
      m2 := (mhl_lo _ _).trans (hD _ rfl rfl rfl rfl)
      s0 := s0_bit hM1
      s1 := top4 (hD _ rfl rfl rfl rfl)
      s7 := rfl }

end Verif.Cpu50
