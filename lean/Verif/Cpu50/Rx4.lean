import Verif.Cpu50.Store

/-!
# Model 2050: RX instructions 40-4b

Halfword and byte operands, load address and branches.
-/

namespace Verif.Cpu50
open Verif.S360
attribute [local irreducible] ros

/-- The operand address (more than 24 bits of it) is in `L`. -/
structure Op4 (e : Env) (tk : Bool) (a : Arch) (i : BitVec 16) (x : W) (s : S) : Prop where
  ae : AtEnd e tk a s
  fn : s.FN = 3#2
  bs : s.BS = 15#4
  mb : s.MB = 0#2
  lb : s.LB = 3#2
  md : s.MD = dig1 i
  il : s.ILC = 2#2
  g : s.G = 0#8
  g1 : s.G1NEG = false
  g2 : s.G2NEG = false
  l : s.L &&& 16777215#32 = x
  r : s.R = a.gr (dig1 i)
  h : s.H &&& 16777215#32 = a.ia &&& 16777215#32
  s0 : s.St.s0 = false
  roar : s.ROAR = 1792 ||| ((opOf i).toNat % 16) <<< 2

theorem to_op40 {e : Env} {tk : Bool} {a : Arch} {i i1 : BitVec 16} {s : S} (ho : EnvOk e)
    (h : FetRX e tk a i i1 s) (hop : (opOf i).toNat / 16 = 4) :
    Ev e tk (fun s' => Op4 e tk a i (ea a (dig2 i) (i1.extractLsb' 12 4) (i1.extractLsb' 0 12)) s' ∧
      s'.St.s7 = s.St.s7 ∧ s'.REFETCH = s.REFETCH) s := by
  have hro := h.roar
  have h64 : (opOf i).toNat / 64 = 1 := by omega
  rw [hop, decide_eq_true h64, Bool.and_true] at hro
  have hgx : s.LS (s.FN ++ s.J) = a.gr (dig2 i) := by
    rw [h.j, show s.FN = 3#2 from h.fn, gr_of h.arch]
  have hg1 : s.LS (s.FN ++ s.MD) = a.gr (dig1 i) := by
    rw [h.md, show s.FN = 3#2 from h.fn, gr_of h.arch]
  have hia : a.ia = s.IA := by rw [← h.arch]; rfl
  have hd := h.d
  have h0 := h.s0
  have h1 := h.s1
  have hl := h.l
  unfold ea
  generalize hB : i1.extractLsb' 12 4 = b at *
  generalize hD : (i1.extractLsb' 0 12).setWidth 32 = d at *
  by_cases hx : dig2 i = 0
  · rw [if_pos hx]
    rw [hx] at h0
    by_cases hb : b = 0
    · rw [if_pos hb]
      rw [hb] at h1
      rw [h0, h1] at hro
      have hz : (0 : W) + 0 + d = s.M &&& 65535#32 := by rw [hd]; simp
      rw [hz]
      refine Ev.plain ho h.calm (n := 0x113) hro (by rw [w113]; decide) (fun t => x113 e _ _)
        (fun t => by unfold memPart; rfl) fun t ht hc => .now ?_
      exact ⟨⟨h.atEnd.upd hc h.arch rfl rfl rfl rfl rfl rfl rfl, h.fn, h.bs, rfl, rfl, h.md, h.ilc,
        h.g, h.g1, h.g2, rfl, hg1, by rw [hia]; exact low24 _ _, rfl, by simp only [bg, h.lo]⟩, rfl, rfl⟩
    · rw [if_neg hb]
      rw [show (b == 0) = false by simpa using hb] at h1
      rw [h0, h1] at hro
      have hz : (0 : W) + a.gr b + d = s.L + (s.M &&& 65535#32) := by rw [hd, hl]; simp
      rw [hz]
      refine Ev.plain ho h.calm (n := 0x112) hro (by rw [w112]; decide) (fun t => x112 e _ _)
        (fun t => by unfold memPart; rfl) fun t ht hc => .now ?_
      exact ⟨⟨h.atEnd.upd hc h.arch rfl rfl rfl rfl rfl rfl rfl, h.fn, h.bs, rfl, rfl, h.md, h.ilc,
        h.g, h.g1, h.g2, rfl, hg1, by rw [hia]; exact low24 _ _, rfl, by simp only [bg, h.lo]⟩, rfl, rfl⟩
  · rw [if_neg hx]
    rw [show (dig2 i == 0) = false by simpa using hx] at h0
    by_cases hb : b = 0
    · rw [if_pos hb]
      rw [hb] at h1
      rw [h0, h1] at hro
      have hz : a.gr (dig2 i) + 0 + d = s.LS (s.FN ++ s.J) + (s.M &&& 65535#32) := by
        rw [hd, hgx]; simp
      rw [hz]
      refine Ev.plain ho h.calm (n := 0x111) hro (by rw [w111]; decide) (fun t => x111 e _ _)
        (fun t => by unfold memPart; rfl) fun t ht hc => ?_
      refine Ev.plain ho hc (n := 0x122) rfl (by rw [w122]; decide) (fun t => x122 e _ _)
        (fun t => by unfold memPart; rfl) fun t2 ht2 hc2 => .now ?_
      exact ⟨⟨h.atEnd.upd hc2 h.arch rfl rfl rfl rfl rfl rfl rfl, h.fn, h.bs, rfl, rfl, h.md, h.ilc,
        h.g, h.g1, h.g2, rfl, hg1, by rw [hia]; exact low24 _ _, rfl, by simp only [bg, h.lo]⟩, rfl, rfl⟩
    · rw [if_neg hb]
      rw [show (b == 0) = false by simpa using hb] at h1
      rw [h0, h1] at hro
      have hz : a.gr (dig2 i) + a.gr b + d =
          s.LS (s.FN ++ s.J) + (s.L + (s.M &&& 65535#32)) := by
        rw [hd, hgx, hl, BitVec.add_assoc]
      rw [hz]
      refine Ev.plain ho h.calm (n := 0x110) hro (by rw [w110]; decide) (fun t => x110 e _ _)
        (fun t => by unfold memPart; rfl) fun t ht hc => ?_
      refine Ev.plain ho hc (n := 0x122) rfl (by rw [w122]; decide) (fun t => x122 e _ _)
        (fun t => by unfold memPart; rfl) fun t2 ht2 hc2 => .now ?_
      exact ⟨⟨h.atEnd.upd hc2 h.arch rfl rfl rfl rfl rfl rfl rfl, h.fn, h.bs, rfl, rfl, h.md, h.ilc,
        h.g, h.g1, h.g2, rfl, hg1, by rw [hia]; exact low24 _ _, rfl, by simp only [bg, h.lo]⟩, rfl, rfl⟩

theorem to_op4 {e : Env} {tk : Bool} {a : Arch} {i i1 : BitVec 16} {s : S} (ho : EnvOk e)
    (h : FetRX e tk a i i1 s) (hop : (opOf i).toNat / 16 = 4) :
    Ev e tk (Op4 e tk a i (ea a (dig2 i) (i1.extractLsb' 12 4) (i1.extractLsb' 0 12))) s :=
  (to_op40 ho h hop).bind fun _ h => .now h.1

theorem jump_and (a : Arch) (v x : W) (h : v &&& 16777215#32 = x) : a.jump x = a.jump v := by
  subst h
  unfold Arch.jump
  have : v &&& 16777215#32 &&& 16777215#32 = v &&& 16777215#32 := by
    rw [BitVec.and_assoc]; simp
  rw [this]

/-- LA. -/
theorem la_exec {e : Env} {tk : Bool} {a : Arch} {i : BitVec 16} {x : W} {s : S} (ho : EnvOk e)
    (h : Op4 e tk a i x s) (hop : (opOf i).toNat = 0x41) (hi : InStore e a) :
    Ev e tk (Bd e tk (a.put (dig1 i) x)) s := by
  have hro := h.roar
  rw [hop] at hro
  obtain rfl := h.ae.arch
  refine Ev.wait (n := 0x704) ho h.ae.calm hro (by rw [w704]; decide) (by rw [w704]; decide)
    (fun tu sa ex => x704 e _ _) fun tu sa ex hex hc2 => ?_
  refine end_b ho h.ae hi hex hc2.qt rfl ?_ rfl rfl ?_ rfl rfl rfl rfl rfl rfl rfl rfl rfl
  · simp only [archOf, h.fn, h.md, gr_put, fr_put, sys_put, Arch.put, h.l]
  · simp only [h.fn, ls30_put]

/-- BAL. -/
theorem bal_exec {e : Env} {tk : Bool} {a : Arch} {i : BitVec 16} {x : W} {s : S} (ho : EnvOk e)
    (h : Op4 e tk a i x s) (hop : (opOf i).toNat = 0x45)
    (hi : InStore e ((a.put (dig1 i) (link a 2)).jump x)) :
    Ev e tk (Bd e tk ((a.put (dig1 i) (link a 2)).jump x)) s := by
  have hro := h.roar
  rw [hop] at hro
  rw [jump_and _ _ _ h.l] at hi ⊢
  refine Ev.plain (n := 0x714) ho h.ae.calm hro (by rw [w714]; decide) (fun t => x714 e _ _)
    (fun t => by unfold memPart; rfl) fun t ht hc => ?_
  have hae := h.ae.upd hc h.ae.arch rfl rfl rfl rfl rfl rfl rfl
  have hlk := link_eq s.M s.H s.ILC s.CC s.PMASK a.ia s.MB h.h h.mb
  have hcc : s.CC = a.cc := by rw [← h.ae.arch]; rfl
  have hpm : s.PMASK = a.pm := by rw [← h.ae.arch]; rfl
  rw [show s.ILC = 2#2 from h.il, hcc, hpm] at hlk
  refine bal_tail ho hae (hi.same rfl) rfl h.fn h.md ?_
  simp only [bg]
  rw [show s.ILC = 2#2 from h.il, hcc, hpm]
  exact hlk

/-- BCT. -/
theorem bct_exec {e : Env} {tk : Bool} {a a' : Arch} {i : BitVec 16} {x : W} {s : S} (ho : EnvOk e)
    (h : Op4 e tk a i x s) (hop : (opOf i).toNat = 0x46) (hi : InStore e a')
    (ha : a' = if a.gr (dig1 i) = 1 then a.put (dig1 i) (a.gr (dig1 i) - 1)
                  else (a.put (dig1 i) (a.gr (dig1 i) - 1)).jump x) :
    Ev e tk (Bd e tk a') s := by
  have hro := h.roar
  rw [hop] at hro
  refine bct_tail (r := dig1 i) ho h.ae hi hro h.fn h.md h.bs ?_
  rw [ha, h.r, h.s0, jump_and _ _ _ h.l]
  simp

/-- BC. -/
theorem bc_exec {e : Env} {tk : Bool} {a a' : Arch} {i : BitVec 16} {x : W} {s : S} (ho : EnvOk e)
    (h : Op4 e tk a i x s) (hop : (opOf i).toNat = 0x47) (hi : InStore e a')
    (ha : a' = if selected (dig1 i) a.cc then a.jump x else a) : Ev e tk (Bd e tk a') s := by
  have hro := h.roar
  rw [hop] at hro
  rw [jump_and _ _ _ h.l] at ha
  have hcc : s.CC = a.cc := by rw [← h.ae.arch]; rfl
  refine Ev.plain (n := 0x71c) ho h.ae.calm hro (by rw [w71c]; decide) (fun t => x71c e _ _)
    (fun t => by unfold memPart; rfl) fun t ht hc => ?_
  have hae := h.ae.upd hc h.ae.arch rfl rfl rfl rfl rfl rfl rfl
  rcases Bool.eq_false_or_eq_true (selected (dig1 i) a.cc) with hs | hs
  · rw [if_pos hs] at ha
    subst ha
    refine br_tail ho hae (hi.same rfl) ?_
    simp only [bg, sel_eq, h.md, hcc, hs]; rfl
  · rw [hs] at ha
    obtain rfl : a' = a := ha
    refine end_a (n := 0x1c4) ho hae hi ?_ (by rw [w1c4, w144])
    simp only [bg, sel_eq, h.md, hcc, hs]; rfl

/-- After a word which asks for the operand at `x`. -/
structure Req (e : Env) (tk : Bool) (a : Arch) (i : BitVec 16) (x : W) (s : S) : Prop where
  ask : Asks e tk s
  ud : s.updD = false
  arch : archOf s = a
  f : s.F.toNat < 16
  odd : a.ia.toNat % 4 = 2 → s.REFETCH = false → s.LS 30 = a.mem (a.ia.toNat / 4) ∧
    s.SYLS1 = (s.LS 30 &&& 0xc000#32 == 0#32)
  fn : s.FN = 3#2
  md : s.MD = dig1 i
  sar : s.SAR = x

theorem Req.mk' {e : Env} {tk : Bool} {a : Arch} {i : BitVec 16} {x : W} {s s' : S}
    (ho : EnvOk e) (hae : AtEnd e tk a s) (fn : s.FN = 3#2) (md : s.MD = dig1 i)
    (hx : x.toNat < 4 * words e)
    (im : s'.initMem = true) (ib : s'.initBump = s.initBump) (ms : s'.ms = .w1)
    (ud : s'.updD = s.updD) (qt : tk = false → exc s' = false) (arch : archOf s' = archOf s)
    (f : s'.F = s.F) (ls : s'.LS 30 = s.LS 30) (sy : s'.SYLS1 = s.SYLS1)
    (rf : s'.REFETCH = s.REFETCH)
    (fn' : s'.FN = s.FN) (md' : s'.MD = s.MD) (sar : s'.SAR = x) : Req e tk a i x s' := by
  refine ⟨⟨im, by rw [ib]; exact hae.calm.ib, ms, ?_, ?_, qt⟩, by rw [ud]; exact hae.calm.ud,
    by rw [arch]; exact hae.arch, by rw [f]; exact hae.f, ?_, fn'.trans fn, md'.trans md, sar⟩
  · have := ho.top
    rw [sar]; omega
  · intro h
    rw [ud, hae.calm.ud] at h; cases h
  · rw [ls, sy, rf]; exact hae.odd

theorem Req.sa {e : Env} {tk : Bool} {a : Arch} {i : BitVec 16} {x : W} {s : S} (ho : EnvOk e)
    (h : Req e tk a i x s) (t : Bool) : memIx (acc t s).SA = x.toNat / 4 ∧
      x.toNat / 4 < words e := by
  have h1 := h.ask.rg
  have h2 := ho.top
  have h3 := ho.lim
  rw [h.sar] at h1
  refine ⟨?_, by omega⟩
  show memIx (s.SAR &&& 0x3ffff) = _
  rw [memIx_and, h.sar, Nat.mod_eq_of_lt (by omega)]

theorem Req.acc {e : Env} {tk : Bool} {a : Arch} {i : BitVec 16} {x : W} {s : S}
    (h : Req e tk a i x s) {t : Bool} (hc : Calm e tk (acc t s)) : AtEnd e tk a (acc t s) := by
  refine ⟨hc, h.arch, h.f, rfl, ?_⟩
  intro h1 h2
  refine h.odd h1 ?_
  simp only [Cpu50.acc, h.ud, Bool.false_and, Bool.or_false] at h2
  exact h2

theorem low2 {l x : W} (h : l &&& 16777215#32 = x) : (l.setWidth 2).toNat = x.toNat % 4 := by
  subst h
  have h1 : (l &&& 16777215#32).toNat = l.toNat % 16777216 := by
    rw [BitVec.toNat_and]; exact Nat.and_two_pow_sub_one_eq_mod l.toNat 24
  rw [h1, BitVec.toNat_setWidth]; omega

theorem byteOf_eq (w : W) (k : BitVec 2) : byteOf w k = w.extractLsb' (24 - 8 * k.toNat) 8 := by
  have h : ∀ k : BitVec 2, k = 0 ∨ k = 1 ∨ k = 2 ∨ k = 3 := by decide
  rcases h k with rfl | rfl | rfl | rfl <;>
  · apply BitVec.eq_of_getLsbD_eq; intro i hi
    interval_cases i <;> simp [byteOf]

theorem putByte3 (m : W) (b : B) : putByte m 3#2 b = m.extractLsb' 8 24 ++ b := by
  apply BitVec.eq_of_getLsbD_eq; intro i hi
  rw [BitVec.getLsbD_append]
  interval_cases i <;> simp [putByte]

theorem arch_put {a : Arch} {s s' : S} {r : BitVec 4} {v : W} (h : archOf s = a)
    (fn : s.FN = 3#2) (md : s.MD = r)
    (ls : s'.LS = lsPut s.LS (s.FN ++ s.MD) v) (cc : s'.CC = s.CC) (pm : s'.PMASK = s.PMASK)
    (ia : s'.IA = s.IA) (mem : s'.mem = s.mem) (mp : s'.MP = s.MP) (key : s'.KEY = s.KEY)
    (am : s'.AMWP = s.AMWP) (mk : s'.MASK = s.MASK) : archOf s' = a.put r v := by
  subst h
  simp only [archOf, ls, cc, pm, ia, mem, mp, key, am, mk, fn, md, gr_put, fr_put, sys_put, Arch.put]

/-- IC. -/
theorem ic_exec {e : Env} {tk : Bool} {a : Arch} {i : BitVec 16} {x : W} {s : S} (ho : EnvOk e)
    (h : Op4 e tk a i x s) (hop : (opOf i).toNat = 0x43) (hx : x.toNat < 4 * words e)
    (hi : InStore e a) :
    Ev e tk (Bd e tk (a.put (dig1 i) ((a.gr (dig1 i)).extractLsb' 8 24 ++ a.byte x.toNat))) s := by
  have hro := h.roar
  rw [hop] at hro
  refine Ev.wait (n := 0x70c) ho h.ae.calm hro (by rw [w70c]; decide) (by rw [w70c]; decide)
    (fun tu sa ex => x70c e _ _) fun tu sa ex hex hc2 => ?_
  have hq := Req.mk' (i := i) ho h.ae h.fn h.md hx (s' := { s with
    timUp := tu, SDR := sdrAt s, SA := sa, ms := .w1,
    R := s.L, L := s.LS (s.FN ++ s.MD), SAR := s.L &&& 16777215#32, alu := s.L, aob := s.L,
    u := 0#8, w := 0#8,
    MB := 3#2, EDST := 3#2, LSA := s.FN ++ s.MD, initMem := true, ROAR := 0x725 })
    rfl rfl rfl rfl hc2.qt rfl rfl rfl rfl rfl rfl rfl h.l
  refine Ev.acc (n := 0x725) ho hq.ask rfl (by rw [w725]; decide) (fun t => x725 e _ _)
    fun t ht hc => ?_
  have hae := hq.acc hc
  have hsd := sdr_acc ho hq.ask t
  refine Ev.wait (n := 0x727) ho (hc.congr (by unfold memPart; rfl)) rfl (by rw [w727]; decide)
    (by rw [w727]; decide) (fun tu sa ex => x727 e _ _) fun tu sa ex hex hc3 => ?_
  refine Ev.plain (n := 0x742) ho (hc3.congr (by unfold memPart; rfl)) rfl (by rw [w742]; decide)
    (fun t => x742 e _ _)
    (fun t => by unfold memPart; rfl) fun t4 ht4 hc4 => ?_
  have hae4 := hae.upd hc4 hq.arch rfl rfl rfl rfl rfl rfl rfl
  refine Ev.wait (n := 0x12b) ho hc4 rfl (by rw [w12b]; decide)
    (by rw [w12b]; decide) (fun tu sa ex => x12b e _ _) fun tu5 sa5 ex5 hex5 hc5 => .now ?_
  refine end_c ho hae4 hi hex5 hc5.qt rfl ?_ rfl rfl rfl rfl rfl rfl rfl rfl rfl rfl
  refine arch_put h.ae.arch h.fn h.md (congrArg (lsPut s.LS (s.FN ++ s.MD)) ?_) rfl rfl rfl rfl rfl
    rfl rfl rfl
  refine (congrArg (fun z => putByte (s.LS (s.FN ++ s.MD)) 3#2 (byteOf z (s.L.setWidth 2))) hsd).trans ?_
  rw [byteOf_eq, putByte3, low2 h.l, h.fn, h.md, gr_of h.ae.arch]
  show (BitVec.extractLsb' 8 24 (a.gr (dig1 i)) ++
    BitVec.extractLsb' (24 - 8 * (x.toNat % 4)) 8 (s.mem ((s.L &&& 16777215#32).toNat / 4)) : W) = _
  rw [h.l, ← h.ae.arch]; rfl

/-- The halfword operand `v` has been read, and extended with ones in `M`. -/
structure HalfOp (e : Env) (tk : Bool) (a : Arch) (i v : BitVec 16) (mb0 : BitVec 2) (g10 g20 : Bool)
    (s : S) : Prop where
  ae : AtEnd e tk a s
  fn : s.FN = 3#2
  j : s.J = dig1 i
  r : s.R = a.gr (dig1 i)
  m : s.M = 0xffff#16 ++ v
  mvf : s.mvf = 2#3
  mb : s.MB = mb0
  g1 : s.G1NEG = g10
  g2 : s.G2NEG = g20
  roar : s.ROAR = 1868 ||| 2 * (mb0 == 3#2).toNat + v.msb.toNat

theorem even1 {r x : W} (h : r &&& 16777215#32 = x) (he : x.toNat % 2 = 0) :
    (r &&& 1#32 != 0#32) = false := by
  have h1 : r &&& 1#32 = x &&& 1#32 := by
    rw [← h, BitVec.and_assoc]; rfl
  have h2 : (x &&& 1#32).toNat = x.toNat % 2 := by
    rw [BitVec.toNat_and]; exact Nat.and_two_pow_sub_one_eq_mod x.toNat 1
  have h3 : x &&& 1#32 = 0#32 := BitVec.eq_of_toNat_eq (by rw [h2, he]; rfl)
  rw [h1, h3]; rfl

theorem even2 {r x : W} (h : r &&& 16777215#32 = x) (he : x.toNat % 2 = 0) :
    (r &&& 2#32 != 0#32) = decide (x.toNat % 4 ≠ 0) := by
  have h1 : r &&& 2#32 = x &&& 2#32 := by
    rw [← h, BitVec.and_assoc]; rfl
  rw [h1]
  have h2 := and2_eq x he
  show (!(x &&& 2#32 == 0#32)) = _
  rw [h2]; simp

theorem mhi (m l : W) : m = 4294967295#32 →
    m &&& 4294901760#32 ||| l >>> 16 = 0xffff#16 ++ l.extractLsb' 16 16 := by
  rintro rfl
  apply BitVec.eq_of_getLsbD_eq; intro i hi
  rw [BitVec.getLsbD_append]
  interval_cases i <;> simp

theorem mlo (m l : W) : m = 4294967295#32 →
    m &&& 4294901760#32 ||| l <<< 16 >>> 16 = 0xffff#16 ++ l.extractLsb' 0 16 := by
  rintro rfl
  apply BitVec.eq_of_getLsbD_eq; intro i hi
  rw [BitVec.getLsbD_append]
  interval_cases i <;> simp

theorem hroar : ∀ (k : BitVec 2) (b : Bool),
    ((1868 ||| 2 * (k == 3#2).toNat) / 4 * 4 ||| 2 * (k == 3#2).toNat + b.toNat) =
      (1868 ||| 2 * (k == 3#2).toNat + b.toNat) := by decide

/-- `72b 705 709` or `72b 705 70b`. -/
theorem half_run {e : Env} {tk : Bool} {a : Arch} {i : BitVec 16} {x : W} {s : S} (ho : EnvOk e)
    (h : Req e tk a i x s) (hro : s.ROAR = 0x72b) (hR : s.R &&& 16777215#32 = x)
    (he : x.toNat % 2 = 0) (hs3 : s.St.s3 = (s.R &&& 2#32 != 0#32)) :
    Ev e tk (HalfOp e tk a i (a.half x.toNat) s.MB s.G1NEG s.G2NEG) s := by
  refine Ev.acc (n := 0x72b) ho h.ask hro (by rw [w72b]; decide) (fun t => x72b e _ _)
    fun t ht hc => ?_
  have hae := h.acc hc
  have hsd := sdr_acc ho h.ask t
  refine Ev.wait (n := 0x705) ho (hc.congr (by unfold memPart; rfl))
    (by show (1796 ||| 2 * (s.R &&& 1#32 != 0#32).toNat + 1) = _
        rw [even1 hR he]; rfl) (by rw [w705]; decide)
    (by rw [w705]; decide) (fun tu sa ex => x705 e _ _) fun tu sa ex hex hc3 => ?_
  have h2 := even2 hR he
  have hg1 : s.LS (s.FN ++ s.MD) = a.gr (dig1 i) := by rw [h.fn, h.md, gr_of h.arch]
  have hj : BitVec.setWidth 4 ((BitVec.setWidth 8 s.MD <<< 4 ||| s.F) >>> 4) = dig1 i := by
    rw [md_f _ _ h.f]; exact h.md
  have hmem : s.mem (s.SAR.toNat / 4) = a.mem (x.toNat / 4) := by rw [h.sar, ← h.arch]; rfl
  rw [hmem] at hsd
  by_cases h4 : x.toNat % 4 = 0
  · have hh : a.half x.toNat = (a.mem (x.toNat / 4)).extractLsb' 16 16 := if_pos h4
    rw [hh]
    refine Ev.plain (n := 0x709) ho (hc3.congr (by unfold memPart; rfl))
      (by show (1800 ||| 2 * s.St.s3.toNat + 1) = _
          rw [hs3, h2]; simp [h4]) (by rw [w709]; decide)
      (fun t => x709 e _ _) (fun t => by unfold memPart; rfl) fun t4 ht4 hc4 => .now ?_
    refine ⟨hae.upd hc4 h.arch rfl rfl rfl rfl rfl rfl rfl, h.fn, hj, hg1, ?_, rfl, rfl, rfl, rfl, ?_⟩
    · refine (mhi _ _ rfl).trans ?_
      exact congrArg (fun z : W => 0xffff#16 ++ z.extractLsb' 16 16) hsd
    · refine (hroar _ _).trans ?_
      refine (congrArg (fun z : W => (1868 ||| 2 * (s.MB == 3#2).toNat + z.msb.toNat)) hsd).trans ?_
      have hmsb : ∀ w : W, (w.extractLsb' 16 16).msb = w.msb := by
        intro w; simp [BitVec.msb, BitVec.getMsbD]
      rw [hmsb]
  · have hh : a.half x.toNat = (a.mem (x.toNat / 4)).extractLsb' 0 16 := if_neg h4
    rw [hh]
    refine Ev.plain (n := 0x70b) ho (hc3.congr (by unfold memPart; rfl))
      (by show (1800 ||| 2 * s.St.s3.toNat + 1) = _
          rw [hs3, h2]; simp [h4]) (by rw [w70b]; decide)
      (fun t => x70b e _ _) (fun t => by unfold memPart; rfl) fun t4 ht4 hc4 => .now ?_
    refine ⟨hae.upd hc4 h.arch rfl rfl rfl rfl rfl rfl rfl, h.fn, hj, hg1, ?_, rfl, rfl, rfl, rfl, ?_⟩
    · refine (mlo _ _ rfl).trans ?_
      exact congrArg (fun z : W => 0xffff#16 ++ z.extractLsb' 0 16) hsd
    · refine (hroar _ _).trans ?_
      refine (congrArg (fun z : W => (1868 ||| 2 * (s.MB == 3#2).toNat + (z.getMsbD 16).toNat)) hsd).trans ?_
      have hmsb : ∀ w : W, (w.extractLsb' 0 16).msb = w.getMsbD 16 := by
        intro w; simp [BitVec.msb, BitVec.getMsbD]
      rw [hmsb]

theorem sext_neg {v : BitVec 16} (h : v.msb = true) : (0xffff#16 ++ v : W) = BitVec.ofInt 32 v.toInt := by
  have h1 : (0xffff#16 ++ v : W) = v.signExtend 32 := by
    apply BitVec.eq_of_getLsbD_eq; intro i hi
    rw [BitVec.getLsbD_append, BitVec.getLsbD_signExtend]
    by_cases h2 : i < 16
    · simp [h2, hi]
    · have : i - 16 < 16 := by omega
      simp [h2, hi, h]
      interval_cases i <;> simp
  rw [h1]; rfl

theorem sext_pos {v : BitVec 16} (h : v.msb = false) :
    (0xffff#16 ++ v : W) &&& 65535#32 = BitVec.ofInt 32 v.toInt := by
  have h1 : (0xffff#16 ++ v : W) &&& 65535#32 = v.signExtend 32 := by
    apply BitVec.eq_of_getLsbD_eq; intro i hi
    rw [BitVec.getLsbD_and, BitVec.getLsbD_append, BitVec.getLsbD_signExtend]
    by_cases h2 : i < 16
    · simp [h2, hi]
      interval_cases i <;> simp
    · simp [h2, hi, h]
      interval_cases i <;> simp
  rw [h1]; rfl

theorem half_int (v : BitVec 16) : (BitVec.ofInt 32 v.toInt).toInt = v.toInt := by
  have h1 := BitVec.toInt_lt (x := v)
  have h2 := BitVec.le_toInt (x := v)
  rw [BitVec.toInt_ofInt, Int.bmod_def]
  simp only [Nat.reducePow] at h1 h2 ⊢
  omega

/-- `74c` or `74d`: the operand in `L`. -/
theorem half_arith {e : Env} {tk : Bool} {a : Arch} {i v : BitVec 16} {g1 g2 : Bool} {s : S}
    {P : S → Prop} (ho : EnvOk e) (h : HalfOp e tk a i v 0#2 g1 g2 s)
    (k : ∀ s', AtEnd e tk a s' → s'.FN = 3#2 → s'.J = dig1 i → s'.R = a.gr (dig1 i) →
      s'.L = BitVec.ofInt 32 v.toInt → s'.mvf = 2#3 → s'.ROAR = 544 ||| 2 * g1.toNat + g2.toNat →
      Ev e tk P s') : Ev e tk P s := by
  have hro := h.roar
  rcases Bool.eq_false_or_eq_true v.msb with hm | hm
  · rw [hm] at hro
    refine Ev.plain (n := 0x74d) ho h.ae.calm hro (by rw [w74d]; decide)
      (fun t => x74d e _ _) (fun t => by unfold memPart; rfl) fun t ht hc => ?_
    exact k _ (h.ae.upd hc h.ae.arch rfl rfl rfl rfl rfl rfl rfl) h.fn h.j h.r
      (h.m.trans (sext_neg hm)) h.mvf (by simp only [bg, h.g1, h.g2])
  · rw [hm] at hro
    refine Ev.plain (n := 0x74c) ho h.ae.calm hro (by rw [w74c]; decide)
      (fun t => x74c e _ _) (fun t => by unfold memPart; rfl) fun t ht hc => ?_
    exact k _ (h.ae.upd hc h.ae.arch rfl rfl rfl rfl rfl rfl rfl) h.fn h.j h.r
      ((congrArg (· &&& 65535#32) h.m).trans (sext_pos hm)) h.mvf (by simp only [bg, h.g1, h.g2])

/-- LH. -/
theorem lh_exec {e : Env} {tk : Bool} {a : Arch} {i : BitVec 16} {x : W} {s : S} (ho : EnvOk e)
    (h : Op4 e tk a i x s) (hop : (opOf i).toNat = 0x48) (hx : x.toNat < 4 * words e)
    (he : x.toNat % 2 = 0) (hi : InStore e a) :
    Ev e tk (Bd e tk (a.put (dig1 i) (BitVec.ofInt 32 (a.half x.toNat).toInt))) s := by
  have hro := h.roar
  rw [hop] at hro
  refine Ev.wait (n := 0x720) ho h.ae.calm hro (by rw [w720]; decide) (by rw [w720]; decide)
    (fun tu sa ex => x720 e _ _) fun tu sa ex hex hc2 => ?_
  refine Ev.bind (half_run ho (Req.mk' (i := i) ho h.ae h.fn h.md hx rfl rfl rfl rfl hc2.qt rfl rfl
    rfl rfl rfl rfl rfl h.l) rfl h.l he rfl) fun s' h' => ?_
  have hro : s'.ROAR = 1868 ||| 2 * (3#2 == 3#2).toNat + (a.half x.toNat).msb.toNat := h'.roar
  rcases Bool.eq_false_or_eq_true (a.half x.toNat).msb with hm | hm
  · rw [hm] at hro
    refine Ev.wait (n := 0x74f) ho h'.ae.calm hro (by rw [w74f]; decide) (by rw [w74f]; decide)
      (fun tu sa ex => x74f e _ _) fun tu sa ex hex hc3 => ?_
    refine end_b ho h'.ae hi hex hc3.qt rfl ?_ rfl rfl ?_ rfl rfl rfl rfl rfl rfl rfl rfl rfl
    · rw [← sext_neg hm, ← h'.m, ← h'.ae.arch]
      simp only [archOf, h'.fn, h'.j, gr_put, fr_put, sys_put, Arch.put]
    · simp only [h'.fn, ls30_put]
  · rw [hm] at hro
    refine Ev.wait (n := 0x74e) ho h'.ae.calm hro (by rw [w74e]; decide) (by rw [w74e]; decide)
      (fun tu sa ex => x74e e _ _) fun tu sa ex hex hc3 => ?_
    refine end_b ho h'.ae hi hex hc3.qt rfl ?_ rfl rfl ?_ rfl rfl rfl rfl rfl rfl rfl rfl rfl
    · rw [← sext_pos hm, ← h'.m, ← h'.ae.arch]
      simp only [archOf, h'.fn, h'.j, gr_put, fr_put, sys_put, Arch.put]
    · simp only [h'.fn, ls30_put]

/-- AH. -/
theorem ah_exec {e : Env} {tk : Bool} {a a' : Arch} {i : BitVec 16} {x : W} {s : S} (ho : EnvOk e)
    (h : Op4 e tk a i x s) (hop : (opOf i).toNat = 0x4a) (hx : x.toNat < 4 * words e)
    (he : x.toNat % 2 = 0) (hi : InStore e a)
    (hv : fixed a (dig1 i) ((a.gr (dig1 i)).toInt + (a.half x.toNat).toInt) = some a') :
    Ev e tk (Bd e tk a') s := by
  have hro := h.roar
  rw [hop] at hro
  refine Ev.wait (n := 0x728) ho h.ae.calm hro (by rw [w728]; decide) (by rw [w728]; decide)
    (fun tu sa ex => x728 e _ _) fun tu sa ex hex hc2 => ?_
  refine Ev.bind (half_run ho (Req.mk' (i := i) ho h.ae h.fn h.md hx rfl rfl rfl rfl hc2.qt rfl rfl
    rfl rfl rfl rfl rfl h.l) rfl h.l he rfl) fun s' h' => ?_
  simp only [h.mb, h.g1, h.g2] at h'
  refine half_arith ho h' fun s2 hae hfn hj hr hl hmv hro2 => ?_
  refine add_tail (r := dig1 i) ho hae hi hro2 hfn hj hmv ?_
  rw [hr, hl, half_int]; exact hv

/-- CH. -/
theorem ch_exec {e : Env} {tk : Bool} {a : Arch} {i : BitVec 16} {x : W} {s : S} (ho : EnvOk e)
    (h : Op4 e tk a i x s) (hop : (opOf i).toNat = 0x49) (hx : x.toNat < 4 * words e)
    (he : x.toNat % 2 = 0) (hi : InStore e a) :
    Ev e tk (Bd e tk (a.setCC (ccCmp (a.gr (dig1 i)).toInt (a.half x.toNat).toInt))) s := by
  have hro := h.roar
  rw [hop] at hro
  refine Ev.wait (n := 0x724) ho h.ae.calm hro (by rw [w724]; decide) (by rw [w724]; decide)
    (fun tu sa ex => x724 e _ _) fun tu sa ex hex hc2 => ?_
  refine Ev.bind (half_run ho (Req.mk' (i := i) ho h.ae h.fn h.md hx rfl rfl rfl rfl hc2.qt rfl rfl
    rfl rfl rfl rfl rfl h.l) rfl h.l he rfl) fun s' h' => ?_
  simp only [h.mb, h.g1, h.g2, h.g] at h'
  refine half_arith ho h' fun s2 hae hfn hj hr hl hmv hro2 => ?_
  refine Ev.plain (n := 0x222) ho hae.calm hro2 (by rw [w222]; decide) (fun t => x222 e _ _)
    (fun t => by unfold memPart; rfl) fun t ht hc => ?_
  rw [← half_int, ← hl, ← hr]
  obtain rfl := hae.arch
  refine cmp_end (l := s2.L) (r := s2.R) ho (hae.upd hc ?_ rfl rfl rfl rfl rfl rfl rfl) hi rfl ?_
  · simp only [archOf, bg, Arch.setCC, cc_sign, sub_eq]
  · simp only [bg, ovf_sub]
    cases decide (fits (s2.R.toInt - s2.L.toInt)) <;> rfl

/-- SH. -/
theorem sh_exec {e : Env} {tk : Bool} {a a' : Arch} {i : BitVec 16} {x : W} {s : S} (ho : EnvOk e)
    (h : Op4 e tk a i x s) (hop : (opOf i).toNat = 0x4b) (hx : x.toNat < 4 * words e)
    (he : x.toNat % 2 = 0) (hi : InStore e a)
    (hv : fixed a (dig1 i) ((a.gr (dig1 i)).toInt - (a.half x.toNat).toInt) = some a') :
    Ev e tk (Bd e tk a') s := by
  have hro := h.roar
  rw [hop] at hro
  refine Ev.wait (n := 0x72c) ho h.ae.calm hro (by rw [w72c]; decide) (by rw [w72c]; decide)
    (fun tu sa ex => x72c e _ _) fun tu sa ex hex hc2 => ?_
  refine Ev.bind (half_run ho (Req.mk' (i := i) ho h.ae h.fn h.md hx rfl rfl rfl rfl hc2.qt rfl rfl
    rfl rfl rfl rfl rfl h.l) rfl h.l he rfl) fun s' h' => ?_
  simp only [h.mb, h.g1, h.g2, h.g] at h'
  refine half_arith ho h' fun s2 hae hfn hj hr hl hmv hro2 => ?_
  refine sub_tail (r := dig1 i) ho hae hi hro2 hfn hj hmv ?_
  rw [hr, hl, half_int]; exact hv

/-- `920` or `748`, then `197`: the word at `x` becomes `v`. -/
theorem st29 {e : Env} {tk : Bool} {a : Arch} {x : Nat} {n : Nat} {v : W} {s : S} (ho : EnvOk e)
    (h : AtEnd e tk a s) (hm : s.ms = .r1) (hb : s.bump = false) (hsa : memIx s.SA = x / 4)
    (hx : x / 4 < words e) (hk : Permit s) (hi : InStore e a) (hr : s.ROAR = n)
    (h29 : ((Cpu50.ros n).tr == 29) = true) {F : S → W}
    (hF : ∀ ex s, Permit s → ∃ alu aob, exec e (Cpu50.ros n) ex s = .ok { s with
      SDR := F s, alu := alu, aob := aob, u := 0#8, w := 0#8, EDST := 3#2,
      LSA := s.FN ++ s.J, updD := true, ROAR := 0x197 })
    (hv : ∀ tu, F { s with timUp := tu, SDR := s.mem (memIx s.SA), ms := .w1 } = v) :
    Ev e tk (Bd e tk (a.store x v)) s := by
  choose alu aob hF using fun (tu ex : Bool) =>
    hF ex { s with timUp := tu, SDR := s.mem (memIx s.SA), ms := .w1 } (hk.congr rfl rfl rfl)
  refine Ev.mod ho h.calm hb hm hr h29 hF fun tu ex hex hc => ?_
  refine end_w ho hc.im hc.ib rfl rfl hb ?_ (fun h1 => ?_) ?_ h.f ?_ (hi.same rfl) rfl
  · show memIx s.SA < _
    rw [hsa]; exact hx
  · rw [← hc.qt h1]; rfl
  · rw [← h.arch]
    show ({ archOf s with
      mem := fun i => if i = memIx s.SA then F _ else s.mem i } : Arch) = _
    rw [hv tu, hsa]
    simp only [archOf, Arch.store]
  · intro h1 h2
    have h3 := h.odd h1 h2
    rw [show a.mem = s.mem by rw [← h.arch]; rfl] at h3
    exact h3

theorem stc_val (w m : W) (b : B) (k : BitVec 2) :
    (w &&& ~~~bsMask (0#4 ||| 8#4 >>> k.toNat) ||| putByte m k b &&& bsMask (0#4 ||| 8#4 >>> k.toNat)) =
      (w &&& ~~~(0xff#32 <<< (24 - 8 * k.toNat)) ||| b.setWidth 32 <<< (24 - 8 * k.toNat)) := by
  have h : ∀ k : BitVec 2, k = 0 ∨ k = 1 ∨ k = 2 ∨ k = 3 := by decide
  rcases h k with rfl | rfl | rfl | rfl <;>
  · apply BitVec.eq_of_getLsbD_eq; intro i hi
    interval_cases i <;> simp [putByte, bsMask]

theorem byte3 (l : W) : (byteOf l 3#2).setWidth 2 = l.setWidth 2 := by
  apply BitVec.eq_of_getLsbD_eq; intro i hi
  interval_cases i <;> simp [byteOf]

/-- STC. -/
theorem stc_exec {e : Env} {tk : Bool} {a : Arch} {i : BitVec 16} {x : W} {s : S} (ho : EnvOk e)
    (h : Op4 e tk a i x s) (hop : (opOf i).toNat = 0x42) (hx : x.toNat < 4 * words e)
    (hk : a.permits x) (hi : InStore e a) :
    Ev e tk (Bd e tk (a.storeByte x.toNat ((a.gr (dig1 i)).extractLsb' 0 8))) s := by
  have hro := h.roar
  rw [hop] at hro
  refine Ev.wait (n := 0x708) ho h.ae.calm hro (by rw [w708]; decide) (by rw [w708]; decide)
    (fun tu sa ex => x708 e _ _) fun tu sa ex hex hc2 => ?_
  have hq := Req.mk' (i := i) ho h.ae h.fn h.md hx (s' := { s with
    timUp := tu, SDR := sdrAt s, SA := sa, ms := .w1,
    SAR := s.L &&& 16777215#32, alu := s.L, aob := s.L, u := byteOf s.L s.LB, w := byteOf s.L s.LB,
    BS := 0#4, MB := BitVec.setWidth 2 (byteOf s.L s.LB), EDST := 3#2, LSA := s.FN ++ s.J,
    initMem := true, ROAR := 0x746 })
    rfl rfl rfl rfl hc2.qt rfl rfl rfl rfl rfl rfl rfl h.l
  refine Ev.acc (n := 0x746) ho hq.ask rfl (by rw [w746]; decide) (fun t => x746 e _ _)
    fun t ht hc => ?_
  obtain ⟨hsa, hxw⟩ := hq.sa ho t
  have hae := hq.acc hc
  have hpm := permit_of hq.arch hq.sar hk (by have := ho.lim; omega)
  refine st29 (n := 0x920) ho (hae.upd (hc.congr (by unfold memPart; rfl)) hq.arch rfl rfl rfl rfl rfl
    rfl rfl) rfl rfl hsa hxw (hpm.congr rfl rfl rfl) hi rfl (by rw [w920]; rfl)
    (fun ex s hk => ⟨_, _, x920_k e ex s hk⟩) fun tu => ?_
  refine (stc_val _ _ _ _).trans ?_
  show (s.mem (memIx (acc t _).SA) &&& _ ||| (s.R.setWidth 8).setWidth 32 <<< _ : W) = _
  have h2 : ((byteOf s.L s.LB).setWidth 2).toNat = x.toNat % 4 := by rw [h.lb, byte3, low2 h.l]
  rw [hsa]
  show (s.mem (x.toNat / 4) &&& ~~~(255#32 <<< (24 - 8 * ((byteOf s.L s.LB).setWidth 2).toNat)) |||
    (s.R.setWidth 8).setWidth 32 <<< (24 - 8 * ((byteOf s.L s.LB).setWidth 2).toNat) : W) = _
  rw [h2, h.r, ← h.ae.arch]
  congr 2

theorem sth_hi (w l : W) : (w &&& ~~~bsMask 12#4 ||| l <<< 16 &&& bsMask 12#4) =
    l.extractLsb' 0 16 ++ w.extractLsb' 0 16 := by
  apply BitVec.eq_of_getLsbD_eq; intro i hi
  rw [BitVec.getLsbD_append]
  interval_cases i <;> simp [bsMask]

theorem sth_lo (w l : W) : (w &&& ~~~bsMask 3#4 ||| l &&& bsMask 3#4) =
    w.extractLsb' 16 16 ++ l.extractLsb' 0 16 := by
  apply BitVec.eq_of_getLsbD_eq; intro i hi
  rw [BitVec.getLsbD_append]
  interval_cases i <;> simp [bsMask]

/-- STH. -/
theorem sth_exec {e : Env} {tk : Bool} {a : Arch} {i : BitVec 16} {x : W} {s : S} (ho : EnvOk e)
    (h : Op4 e tk a i x s) (hop : (opOf i).toNat = 0x40) (hx : x.toNat < 4 * words e)
    (he : x.toNat % 2 = 0) (hk : a.permits x) (hi : InStore e a) :
    Ev e tk (Bd e tk (a.storeHalf x.toNat ((a.gr (dig1 i)).extractLsb' 0 16))) s := by
  have hro := h.roar
  rw [hop] at hro
  refine Ev.plain (n := 0x700) ho h.ae.calm hro (by rw [w700]; decide) (fun t => x700 e _ _)
    (fun t => by unfold memPart; rfl) fun t ht hc => ?_
  have hae := h.ae.upd hc h.ae.arch rfl rfl rfl rfl rfl rfl rfl
  refine Ev.wait (n := 0x729) ho hc rfl (by rw [w729]; decide) (by rw [w729]; decide)
    (fun tu sa ex => x729 e _ _) fun tu sa ex hex hc2 => ?_
  have hg1 : s.LS (s.FN ++ s.MD) = a.gr (dig1 i) := by rw [h.fn, h.md, gr_of h.ae.arch]
  have h2 := even2 h.l he
  have h1 := even1 h.l he
  refine Ev.bind (P := fun s' => Req e tk a i x s' ∧ s'.L = a.gr (dig1 i) ∧ s'.BS = 12#4 ∧
    s'.ROAR = 1864 ||| (decide (x.toNat % 4 ≠ 0)).toNat) (.now ?_) ?_
  · refine ⟨Req.mk' ho hae h.fn h.md hx rfl rfl rfl rfl hc2.qt rfl rfl rfl rfl rfl rfl rfl h.l, hg1, rfl, ?_⟩
    show (1864 ||| 2 * (s.L &&& 1#32 != 0#32).toNat +
      ((s.L &&& 2#32 != 0#32) || s.L &&& 1#32 != 0#32).toNat) = _
    rw [h1, h2]; simp
  rintro s1 ⟨hq, hl, hbs, hr1⟩
  have hpm := permit_of hq.arch hq.sar hk (by have := ho.lim; omega)
  by_cases h4 : x.toNat % 4 = 0
  · have hst : a.storeHalf x.toNat ((a.gr (dig1 i)).extractLsb' 0 16) = a.store x.toNat
        ((a.gr (dig1 i)).extractLsb' 0 16 ++ (a.mem (x.toNat / 4)).extractLsb' 0 16) := by
      unfold Arch.storeHalf; rw [if_pos h4]
    rw [hst]
    replace hr1 : s1.ROAR = 0x748 := by rw [hr1, decide_eq_false (by simp [h4])]; rfl
    refine Ev.accWait (n := 0x748) ho hq.ask hr1 (by rw [w748]; rfl) fun t ht hc => ?_
    obtain ⟨hsa, hxw⟩ := hq.sa ho t
    refine st29 (n := 0x748) ho (hq.acc hc) rfl rfl hsa hxw (hpm.congr rfl rfl rfl) hi hr1 (by rw [w748]; rfl)
      (fun ex s hk => ⟨_, _, x748_k e ex s hk⟩) fun tu => ?_
    show (s1.mem (memIx (acc t s1).SA) &&& ~~~bsMask s1.BS ||| s1.L <<< 16 &&& bsMask s1.BS : W) = _
    rw [hsa, hbs, hl, ← hq.arch]
    exact sth_hi _ _
  · have hst : a.storeHalf x.toNat ((a.gr (dig1 i)).extractLsb' 0 16) = a.store x.toNat
        ((a.mem (x.toNat / 4)).extractLsb' 16 16 ++ (a.gr (dig1 i)).extractLsb' 0 16) := by
      unfold Arch.storeHalf; rw [if_neg h4]
    rw [hst]
    replace hr1 : s1.ROAR = 0x749 := by rw [hr1, decide_eq_true h4]; rfl
    refine Ev.acc (n := 0x749) ho hq.ask hr1 (by rw [w749]; rfl) (fun t => x749 e _ _)
      fun t ht hc => ?_
    obtain ⟨hsa, hxw⟩ := hq.sa ho t
    refine st29 (n := 0x920) ho ((hq.acc hc).upd (hc.congr (by unfold memPart; rfl)) hq.arch rfl rfl
      rfl rfl rfl rfl rfl) rfl rfl hsa hxw (hpm.congr rfl rfl rfl) hi rfl (by rw [w920]; rfl)
      (fun ex s hk => ⟨_, _, x920_k e ex s hk⟩) fun tu => ?_
    show (s1.mem (memIx (acc t s1).SA) &&& ~~~bsMask 3#4 ||| s1.L &&& bsMask 3#4 : W) = _
    rw [hsa, hl, ← hq.arch]
    exact sth_lo _ _

end Verif.Cpu50
