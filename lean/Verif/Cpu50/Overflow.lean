import Verif.Cpu50.Sla

/-!
# Model 2050: interruption for fixed-point overflow (C168)
-/

namespace Verif

/-- Specification. The exact result of an instruction of fixed-point arithmetic which can overflow: LPR, LCR, AR, SR, AH,
SH, A, S. -/
def S360.Arch.exact (a : S360.Arch) : Option Int :=
  match (S360.opOf a.inst).toNat with
  | 0x10 => some ((a.gr (S360.dig2 a.inst)).toInt.natAbs : Int)
  | 0x13 => some (-(a.gr (S360.dig2 a.inst)).toInt)
  | 0x1a => some ((a.gr (S360.dig1 a.inst)).toInt + (a.gr (S360.dig2 a.inst)).toInt)
  | 0x1b => some ((a.gr (S360.dig1 a.inst)).toInt - (a.gr (S360.dig2 a.inst)).toInt)
  | 0x4a => some ((a.gr (S360.dig1 a.inst)).toInt + (a.half a.operand.toNat).toInt)
  | 0x4b => some ((a.gr (S360.dig1 a.inst)).toInt - (a.half a.operand.toNat).toInt)
  | 0x5a => some ((a.gr (S360.dig1 a.inst)).toInt + (a.mem (a.operand.toNat / 4)).toInt)
  | 0x5b => some ((a.gr (S360.dig1 a.inst)).toInt - (a.mem (a.operand.toNat / 4)).toInt)
  | _ => none

/-- Specification. The storage operand, if there is one, is on its boundary and in a storage of `lim` bytes. -/
def S360.Arch.reads (lim : Nat) (a : S360.Arch) : Prop :=
  ((S360.opOf a.inst).toNat / 16 = 4 → a.operand.toNat % 2 = 0 ∧ a.operand.toNat + 2 ≤ lim) ∧
  ((S360.opOf a.inst).toNat / 16 = 5 → a.operand.toNat % 4 = 0 ∧ a.operand.toNat + 4 ≤ lim)

namespace Cpu50
open Verif.S360
attribute [local irreducible] ros

/-- `v` does not fit in register `r`, and the interruption which follows leads to `b`. -/
structure Trap (e : Env) (tk : Bool) (a : Arch) (r : BitVec 4) (v : Int) (k : BitVec 2) (b : Arch) : Prop where
  no : ¬ fits v
  pm : a.pm.getLsbD 3 = true
  kept : a.Kept
  room : 112 ≤ 4 * words e
  eq : b = interrupt ((a.put r (BitVec.ofInt 32 v)).setCC 3) 0x28 8 k
  quiet : tk = false → Quiet a b
  ins : InStore e b

/-- Word 220: add. -/
theorem add_over {e : Env} {tk : Bool} {a b : Arch} {r : BitVec 4} {k : BitVec 2} {s : S} (ho : EnvOk e)
    (h : AtEnd e tk a s) (hr : s.ROAR = 0x220) (hn : s.FN = 3#2) (hj : s.J = r)
    (hf : s.mvf = 2) (il : s.ILC = k) (T : Trap e tk a r (s.R.toInt + s.L.toInt) k b) :
    Ev e tk (Bd e tk b) s := by
  refine Ev.plain ho h.calm hr (by rw [w220]; decide) (fun t => x220 e _ _)
    (fun t => by unfold memPart; rfl) fun t ht hc => ?_
  obtain rfl := h.arch
  have hov := ovf_add s.L s.R
  have hfit := T.no
  refine ovf_trap ho (h.upd hc rfl rfl rfl rfl rfl rfl ?_ rfl) ?_ ?_ hf il T.pm ?_ T.room (T.eq.trans ?_) T.quiet T.ins
  · simp only [bg, hn, ls30_put]
  · simp only [bg, hov, hfit]; rfl
  · exact byteOf_put _ _ _
  · have hk := T.kept
    unfold Arch.Kept at hk ⊢
    simp only [archOf, bg, hn, sys_put] at hk ⊢
    exact hk
  · rw [ofInt_add]
    simp only [archOf, bg, hn, hj, gr_put, fr_put, sys_put, Arch.put, Arch.setCC]

/-- Word 221: subtract. -/
theorem sub_over {e : Env} {tk : Bool} {a b : Arch} {r : BitVec 4} {k : BitVec 2} {s : S} (ho : EnvOk e)
    (h : AtEnd e tk a s) (hr : s.ROAR = 0x221) (hn : s.FN = 3#2) (hj : s.J = r)
    (hf : s.mvf = 2) (il : s.ILC = k) (T : Trap e tk a r (s.R.toInt - s.L.toInt) k b) :
    Ev e tk (Bd e tk b) s := by
  refine Ev.plain ho h.calm hr (by rw [w221]; decide) (fun t => x221 e _ _)
    (fun t => by unfold memPart; rfl) fun t ht hc => ?_
  obtain rfl := h.arch
  have hov := ovf_sub s.L s.R
  have hfit := T.no
  refine ovf_trap ho (h.upd hc rfl rfl rfl rfl rfl rfl ?_ rfl) ?_ ?_ hf il T.pm ?_ T.room (T.eq.trans ?_) T.quiet T.ins
  · simp only [bg, hn, ls30_put]
  · simp only [bg, hov, hfit]; rfl
  · exact byteOf_put _ _ _
  · have hk := T.kept
    unfold Arch.Kept at hk ⊢
    simp only [archOf, bg, hn, sys_put] at hk ⊢
    exact hk
  · rw [ofInt_sub]
    simp only [archOf, bg, hn, hj, gr_put, fr_put, sys_put, Arch.put, Arch.setCC, sub_eq]

/-- Word 21d: overflow of a complement. -/
theorem neg_trap {e : Env} {tk : Bool} {a b : Arch} {k : BitVec 2} {s : S} (ho : EnvOk e) (h : AtEnd e tk a s)
    (hr : s.ROAR = 0x21d) (hm : byteOf s.M s.MB = 8#8) (il : s.ILC = k)
    (hp : a.pm.getLsbD 3 = true) (hk : a.Kept) (hw : 112 ≤ 4 * words e)
    (hb : b = interrupt (a.setCC 3) 0x28 8 k) (hq : tk = false → Quiet a b) (hi : InStore e b) :
    Ev e tk (Bd e tk b) s := by
  refine Ev.plain ho h.calm hr (by rw [w21d]; decide) (fun t => x21d e _ _)
    (fun t => by unfold memPart; rfl) fun t ht hc => ?_
  obtain rfl := h.arch
  exact ovf_trap ho (h.upd hc rfl rfl rfl rfl rfl rfl rfl rfl) rfl hm rfl il hp hk hw hb hq hi

/-- Word 21e: complement. -/
theorem neg_over' {e : Env} {tk : Bool} {a b : Arch} {r : BitVec 4} {k : BitVec 2} {s : S} (ho : EnvOk e)
    (h : AtEnd e tk a s) (hr : s.ROAR = 0x21e) (hn : s.FN = 3#2)
    (hd : s.MD = r) (hm : byteOf s.M s.MB = 8#8) (il : s.ILC = k)
    (T : Trap e tk a r (-s.L.toInt) k b) : Ev e tk (Bd e tk b) s := by
  refine Ev.plain ho h.calm hr (by rw [w21e]; decide) (fun t => x21e e _ _)
    (fun t => by unfold memPart; rfl) fun t ht hc => ?_
  obtain rfl := h.arch
  have hov := ovf_neg s.L
  have hfit := T.no
  refine neg_trap ho (h.upd hc rfl rfl rfl rfl rfl rfl ?_ rfl) ?_ hm il T.pm ?_ T.room (T.eq.trans ?_) T.quiet T.ins
  · simp only [bg, hn, ls30_put]
  · simp only [bg, hov, hfit]; rfl
  · have hk := T.kept
    unfold Arch.Kept at hk ⊢
    simp only [archOf, bg, hn, sys_put] at hk ⊢
    exact hk
  · rw [ofInt_neg]
    simp only [archOf, bg, hn, hd, gr_put, fr_put, sys_put, Arch.put, Arch.setCC, neg_eq]

/-- Word 28c: load complement. -/
theorem lcr_over {e : Env} {tk : Bool} {a b : Arch} {r : BitVec 4} {k : BitVec 2} {s : S} (ho : EnvOk e)
    (h : AtEnd e tk a s) (hr : s.ROAR = 0x28c) (hn : s.FN = 3#2)
    (hd : s.MD = r) (il : s.ILC = k) (T : Trap e tk a r (-s.L.toInt) k b) : Ev e tk (Bd e tk b) s := by
  refine Ev.plain ho h.calm hr (by rw [w28c]; decide) (fun t => x28c e _ _)
    (fun t => by unfold memPart; rfl) fun t ht hc => ?_
  obtain rfl := h.arch
  have hov := ovf_neg s.L
  have hfit := T.no
  refine neg_trap ho (h.upd hc rfl rfl rfl rfl rfl rfl ?_ rfl) ?_ ?_ il T.pm ?_ T.room (T.eq.trans ?_) T.quiet T.ins
  · simp only [bg, hn, ls30_put]
  · simp only [bg, hov, hfit]; rfl
  · exact byteOf_put _ _ _
  · have hk := T.kept
    unfold Arch.Kept at hk ⊢
    simp only [archOf, bg, hn, sys_put] at hk ⊢
    exact hk
  · rw [ofInt_neg]
    simp only [archOf, bg, hn, hd, gr_put, fr_put, sys_put, Arch.put, Arch.setCC, neg_eq]

/-- Word 280: load positive. -/
theorem lpr_over {e : Env} {tk : Bool} {a b : Arch} {r : BitVec 4} {k : BitVec 2} {s : S} (ho : EnvOk e)
    (h : AtEnd e tk a s) (hr : s.ROAR = 0x280) (hn : s.FN = 3#2)
    (hd : s.MD = r) (il : s.ILC = k) (T : Trap e tk a r (s.L.toInt.natAbs : Int) k b) :
    Ev e tk (Bd e tk b) s := by
  refine Ev.plain ho h.calm hr (by rw [w280]; decide) (fun t => x280 e _ _)
    (fun t => by unfold memPart; rfl) fun t ht hc => ?_
  obtain rfl := h.arch
  have hms := msb_toInt s.L
  have hneg : s.L.toInt < 0 := by
    have h1 := T.no
    have h2 := fits_toInt s.L
    unfold fits at h1 h2
    omega
  have habs : (s.L.toInt.natAbs : Int) = -s.L.toInt := by omega
  rw [habs] at T
  have hmsb : s.L.msb = true := by rw [hms]; simpa using hneg
  refine neg_over' (r := r) ho (h.upd hc rfl rfl rfl rfl rfl rfl ?_ rfl) ?_ hn hd ?_ il
    ⟨T.no, T.pm, ?_, T.room, T.eq.trans ?_, T.quiet, T.ins⟩
  · simp only [bg, hn, ls30_put]
  · simp only [bg, hmsb]; rfl
  · exact byteOf_put _ _ _
  · have hk := T.kept
    unfold Arch.Kept at hk ⊢
    simp only [archOf, bg, hn, sys_put] at hk ⊢
    exact hk
  · simp only [bg, archOf, hn, hd, gr_put, fr_put, sys_put, Arch.setCC, Arch.put]
    have : ∀ v : W, (fun i : BitVec 4 => if i = r then v else if i = r then s.L else s.LS (3#2 ++ i)) =
        fun i => if i = r then v else s.LS (3#2 ++ i) := by
      intro v; funext i
      by_cases h : i = r <;> simp [h]
    simp only [this]

/-! ### The operands -/

theorem to_op1_il {e : Env} {tk : Bool} {k : BitVec 2} {a : Arch} {i : BitVec 16} {s : S} (ho : EnvOk e)
    (h : FetR e tk k a i s) (hop : (opOf i).toNat / 16 = 1) :
    Ev e tk (fun s' => Op1 e tk a i s' ∧ s'.ILC = k) s := by
  obtain ⟨b, hr⟩ := h.roar
  rw [hop] at hr
  have key : ∀ n, s.ROAR = n → Cpu50.ros n = Cpu50.ros 0x104 →
      Ev e tk (fun s' => Op1 e tk a i s' ∧ s'.ILC = k) s := by
    intro n hn hw
    refine Ev.plain ho h.calm hn (by rw [hw, w104]; decide)
      (fun t => by rw [hw]; exact x104 e _ _)
      (fun t => by unfold memPart; rfl) fun t ht hc => .now (And.intro ?_ ?_)
    case refine_2 => exact h.ilc
    exact {
      ae := h.atEnd.upd hc h.arch rfl rfl rfl rfl rfl rfl rfl
      fn := h.fn
      bs := h.bs
      mb := h.mb
      md := h.md
      l := by
        simp only [bg, h.j]
        rw [show s.FN = 3#2 from h.fn, gr_of h.arch]
      roar := by simp only [bg, h.lo] }
  cases b with
  | false => exact key 0x104 hr rfl
  | true => exact key 0x105 hr (by rw [w105, w104])

theorem opx_run_il {e : Env} {tk : Bool} {a : Arch} {i : BitVec 16} {x : W} {s : S} {n : Nat}
    {P : S → Prop} (ho : EnvOk e) (h : OpX e tk a i x s) (hr : s.ROAR = n)
    (hp : usesStore (Cpu50.ros n) = true) (h29 : ((Cpu50.ros n).tr == 29) = false)
    {f : S → S} (hx : ∀ ex s, exec e (Cpu50.ros n) ex s = .ok (f s))
    (hq : ∀ s, memPart (f s) = memPart s)
    (k : ∀ s', Calm e tk (f s') → AtEnd e tk a s' → s'.SDR = a.mem (x.toNat / 4) →
      s'.FN = 3#2 → s'.MD = dig1 i → s'.ILC = 2#2 → Ev e tk P (f s')) : Ev e tk P s := by
  refine Ev.accWait ho h.ask hr (by rw [hp]; rfl) fun t ht hc => ?_
  refine Ev.wait ho hc hr (by rw [hp]; simp) h29
    (fun tu sa ex => hx ex _) fun tu sa ex hex hc2 => ?_
  refine k _ (hc2.congr (hq _)) ⟨hc2, h.arch, h.f, rfl, ?_⟩ ?_ h.fn h.md h.il
  · intro h1 h2
    refine h.odd h1 ?_
    simp only [acc, h.ud, Bool.false_and, Bool.or_false] at h2
    exact h2
  · show sdrAt (acc t s) = _
    rw [sdr_acc ho h.ask, h.sar, ← h.arch]; rfl

/-- `72b 705 709` or `72b 705 70b`. -/
theorem half_run_il {e : Env} {tk : Bool} {a : Arch} {i : BitVec 16} {x : W} {s : S} (ho : EnvOk e)
    (h : Req e tk a i x s) (hro : s.ROAR = 0x72b) (hR : s.R &&& 16777215#32 = x)
    (he : x.toNat % 2 = 0) (hs3 : s.St.s3 = (s.R &&& 2#32 != 0#32)) :
    Ev e tk (fun s' => HalfOp e tk a i (a.half x.toNat) s.MB s.G1NEG s.G2NEG s' ∧ s'.ILC = s.ILC) s := by
  refine Ev.acc (n := 0x72b) ho h.ask hro (by rw [w72b]; decide) (fun t => x72b e _ _)
    fun t ht hc => ?_
  have hae := h.acc hc
  have hsd := sdr_acc ho h.ask t
  refine Ev.wait (n := 0x705) ho (hc.congr (by unfold memPart; rfl))
    (by show (1796 ||| 2 * (s.R &&& 1#32 != 0#32).toNat + 1) = _
        rw [even1 hR he]; rfl) (by rw [w705]; decide)
    (by rw [w705]; decide) (fun tu sa ex => x705 e _ _) fun tu sa ex hex hc3 => ?_
  have h2 := even2 hR he
  have hg1 : s.LS (s.FN ++ s.MD) = a.gr (dig1 i) := by rw [h.fn, h.md, gr_of h.arch]
  have hj : BitVec.setWidth 4 ((BitVec.setWidth 8 s.MD <<< 4 ||| s.F) >>> 4) = dig1 i := by
    rw [md_f _ _ h.f]; exact h.md
  have hmem : s.mem (s.SAR.toNat / 4) = a.mem (x.toNat / 4) := by rw [h.sar, ← h.arch]; rfl
  rw [hmem] at hsd
  by_cases h4 : x.toNat % 4 = 0
  · have hh : a.half x.toNat = (a.mem (x.toNat / 4)).extractLsb' 16 16 := if_pos h4
    rw [hh]
    refine Ev.plain (n := 0x709) ho (hc3.congr (by unfold memPart; rfl))
      (by show (1800 ||| 2 * s.St.s3.toNat + 1) = _
          rw [hs3, h2]; simp [h4]) (by rw [w709]; decide)
      (fun t => x709 e _ _) (fun t => by unfold memPart; rfl) fun t4 ht4 hc4 => .now ⟨?_, rfl⟩
    refine ⟨hae.upd hc4 h.arch rfl rfl rfl rfl rfl rfl rfl, h.fn, hj, hg1, ?_, rfl, rfl, rfl, rfl, ?_⟩
    · refine (mhi _ _ rfl).trans ?_
      exact congrArg (fun z : W => 0xffff#16 ++ z.extractLsb' 16 16) hsd
    · refine (hroar _ _).trans ?_
      refine (congrArg (fun z : W => (1868 ||| 2 * (s.MB == 3#2).toNat + z.msb.toNat)) hsd).trans ?_
      have hmsb : ∀ w : W, (w.extractLsb' 16 16).msb = w.msb := by
        intro w; simp [BitVec.msb, BitVec.getMsbD]
      rw [hmsb]
  · have hh : a.half x.toNat = (a.mem (x.toNat / 4)).extractLsb' 0 16 := if_neg h4
    rw [hh]
    refine Ev.plain (n := 0x70b) ho (hc3.congr (by unfold memPart; rfl))
      (by show (1800 ||| 2 * s.St.s3.toNat + 1) = _
          rw [hs3, h2]; simp [h4]) (by rw [w70b]; decide)
      (fun t => x70b e _ _) (fun t => by unfold memPart; rfl) fun t4 ht4 hc4 => .now ⟨?_, rfl⟩
    refine ⟨hae.upd hc4 h.arch rfl rfl rfl rfl rfl rfl rfl, h.fn, hj, hg1, ?_, rfl, rfl, rfl, rfl, ?_⟩
    · refine (mlo _ _ rfl).trans ?_
      exact congrArg (fun z : W => 0xffff#16 ++ z.extractLsb' 0 16) hsd
    · refine (hroar _ _).trans ?_
      refine (congrArg (fun z : W => (1868 ||| 2 * (s.MB == 3#2).toNat + (z.getMsbD 16).toNat)) hsd).trans ?_
      have hmsb : ∀ w : W, (w.extractLsb' 0 16).msb = w.getMsbD 16 := by
        intro w; simp [BitVec.msb, BitVec.getMsbD]
      rw [hmsb]

theorem half_arith_il {e : Env} {tk : Bool} {a : Arch} {i v : BitVec 16} {g1 g2 : Bool} {s : S}
    {k : BitVec 2} {P : S → Prop} (ho : EnvOk e) (h : HalfOp e tk a i v 0#2 g1 g2 s) (il : s.ILC = k)
    (c : ∀ s', AtEnd e tk a s' → s'.FN = 3#2 → s'.J = dig1 i → s'.R = a.gr (dig1 i) →
      s'.L = BitVec.ofInt 32 v.toInt → s'.mvf = 2#3 → s'.ROAR = 544 ||| 2 * g1.toNat + g2.toNat →
      s'.ILC = k → Ev e tk P s') : Ev e tk P s := by
  have hro := h.roar
  rcases Bool.eq_false_or_eq_true v.msb with hm | hm
  · rw [hm] at hro
    refine Ev.plain (n := 0x74d) ho h.ae.calm hro (by rw [w74d]; decide)
      (fun t => x74d e _ _) (fun t => by unfold memPart; rfl) fun t ht hc => ?_
    exact c _ (h.ae.upd hc h.ae.arch rfl rfl rfl rfl rfl rfl rfl) h.fn h.j h.r
      (h.m.trans (sext_neg hm)) h.mvf (by simp only [bg, h.g1, h.g2]) il
  · rw [hm] at hro
    refine Ev.plain (n := 0x74c) ho h.ae.calm hro (by rw [w74c]; decide)
      (fun t => x74c e _ _) (fun t => by unfold memPart; rfl) fun t ht hc => ?_
    exact c _ (h.ae.upd hc h.ae.arch rfl rfl rfl rfl rfl rfl rfl) h.fn h.j h.r
      ((congrArg (· &&& 65535#32) h.m).trans (sext_pos hm)) h.mvf (by simp only [bg, h.g1, h.g2]) il

/-- AH. -/
theorem ah_over {e : Env} {tk : Bool} {a b : Arch} {i : BitVec 16} {x : W} {s : S} (ho : EnvOk e)
    (h : Op4 e tk a i x s) (hop : (opOf i).toNat = 0x4a) (hx : x.toNat < 4 * words e)
    (he : x.toNat % 2 = 0)
    (T : Trap e tk a (dig1 i) ((a.gr (dig1 i)).toInt + (a.half x.toNat).toInt) 2 b) :
    Ev e tk (Bd e tk b) s := by
  have hro := h.roar
  rw [hop] at hro
  refine Ev.wait (n := 0x728) ho h.ae.calm hro (by rw [w728]; decide) (by rw [w728]; decide)
    (fun tu sa ex => x728 e _ _) fun tu sa ex hex hc2 => ?_
  refine Ev.bind (half_run_il ho (Req.mk' (i := i) ho h.ae h.fn h.md hx rfl rfl rfl rfl hc2.qt rfl rfl
    rfl rfl rfl rfl rfl h.l) rfl h.l he rfl) fun s' ⟨h', il⟩ => ?_
  simp only [h.mb, h.g1, h.g2] at h'
  refine half_arith_il ho h' (il.trans h.il) fun s2 hae hfn hj hr hl hmv hro2 il2 => ?_
  refine add_over (r := dig1 i) ho hae hro2 hfn hj hmv il2 ?_
  rw [hr, hl, half_int]; exact T

/-- SH. -/
theorem sh_over {e : Env} {tk : Bool} {a b : Arch} {i : BitVec 16} {x : W} {s : S} (ho : EnvOk e)
    (h : Op4 e tk a i x s) (hop : (opOf i).toNat = 0x4b) (hx : x.toNat < 4 * words e)
    (he : x.toNat % 2 = 0)
    (T : Trap e tk a (dig1 i) ((a.gr (dig1 i)).toInt - (a.half x.toNat).toInt) 2 b) :
    Ev e tk (Bd e tk b) s := by
  have hro := h.roar
  rw [hop] at hro
  refine Ev.wait (n := 0x72c) ho h.ae.calm hro (by rw [w72c]; decide) (by rw [w72c]; decide)
    (fun tu sa ex => x72c e _ _) fun tu sa ex hex hc2 => ?_
  refine Ev.bind (half_run_il ho (Req.mk' (i := i) ho h.ae h.fn h.md hx rfl rfl rfl rfl hc2.qt rfl rfl
    rfl rfl rfl rfl rfl h.l) rfl h.l he rfl) fun s' ⟨h', il⟩ => ?_
  simp only [h.mb, h.g1, h.g2, h.g] at h'
  refine half_arith_il ho h' (il.trans h.il) fun s2 hae hfn hj hr hl hmv hro2 il2 => ?_
  refine sub_over (r := dig1 i) ho hae hro2 hfn hj hmv il2 ?_
  rw [hr, hl, half_int]; exact T

/-! ### The theorem -/

/-- C168: if the exact result of LPR, LCR, AR, SR, AH, SH, A or S is no number of 32 bits, and the interruption for overflow is
not masked off, the register gets the low 32 bits of the result, the condition code becomes 3, and a program
interruption with the code 8 follows. -/
theorem C168_overflow {e : Env} {tk : Bool} {a b : Arch} {v : Int} {s : S} (ho : EnvOk e)
    (h : Ready e tk a s) (hia : InStore e a) (hk : a.Kept) (hm : 112 ≤ 4 * words e)
    (hv : a.exact = some v) (hr : a.reads (4 * words e))
    (hf : ¬ (-2 ^ 31 ≤ v ∧ v < 2 ^ 31)) (hp : a.pm.getLsbD 3 = true)
    (hb : b = interrupt ((a.next.put (dig1 a.inst) (BitVec.ofInt 32 v)).setCC 3) 0x28 8 (lenOf (opOf a.inst)))
    (hw : tk = false → Quiet a b) (hi : InStore e b)
    (tick : Nat → Bool) (ht : ∀ i, tick i = true → tk = true) :
    ∃ n s', run e tick n s = .ok s' ∧ (Ready e tk b s' ∨ Pend e tk b s') := by
  refine Ev.run ?_ tick ht
  unfold Arch.exact at hv
  have T1 : (opOf a.inst).toNat / 16 = 1 → Trap e tk { a with ia := a.ia + 2 } (dig1 a.inst) v 1 b := fun h1 =>
    ⟨hf, hp, hk, hm, by rw [next2 (by omega), len1 (by omega)] at hb; exact hb, hw, hi⟩
  have T2 : (opOf a.inst).toNat / 16 = 4 ∨ (opOf a.inst).toNat / 16 = 5 → Trap e tk { a with ia := a.ia + 4 } (dig1 a.inst) v 2 b :=
    fun h1 => ⟨hf, hp, hk, hm,
      by rw [next4 (by omega) (by omega), len2 (by omega) (by omega)] at hb; exact hb, hw, hi⟩
  have h1 : (opOf a.inst).toNat / 16 = 1 →
      Ev e tk (fun s' => Op1 e tk { a with ia := a.ia + 2 } a.inst s' ∧ s'.ILC = 1) s := fun h1 =>
    Ev.bind (fetch_rr ho h (by omega) hia.rg) fun s1 f1 => to_op1_il ho f1.r h1
  have h4 : (opOf a.inst).toNat / 16 = 4 →
      Ev e tk (Op4 e tk { a with ia := a.ia + 4 } a.inst a.operand) s := fun h1 => by
    have := op4_exec ho h hia h1
    rwa [next4 (by omega) (by omega)] at this
  have h5 : (opOf a.inst).toNat / 16 = 5 →
      Ev e tk (OpX e tk { a with ia := a.ia + 4 } a.inst a.operand) s := fun h1 => by
    have hr5 : Arch.within (4 * words e) 4 a.operand = true := by simpa [Arch.within] using hr.2 h1
    rw [operand_rx (by omega)] at hr5 ⊢
    exact Ev.bind (fetch_rx ho h (by omega) (by omega) hia.rg) fun s1 f1 => to_opx ho f1 h1 hr5
  split at hv <;> rename_i heq <;> first | obtain rfl := Option.some.inj hv | exact nomatch hv
  · refine Ev.bind (h1 (by omega)) fun s1 ⟨f1, il⟩ => ?_
    have T := T1 (by omega)
    have hro := f1.roar
    rw [heq] at hro
    refine lpr_over ho f1.ae hro f1.fn f1.md il ?_
    rw [f1.l]; exact T
  · refine Ev.bind (h1 (by omega)) fun s1 ⟨f1, il⟩ => ?_
    have T := T1 (by omega)
    have hro := f1.roar
    rw [heq] at hro
    refine lcr_over ho f1.ae hro f1.fn f1.md il ?_
    rw [f1.l]; exact T
  · refine Ev.bind (h1 (by omega)) fun s1 ⟨f1, il⟩ => ?_
    have T := T1 (by omega)
    have hro := f1.roar
    rw [heq] at hro
    refine Ev.plain (n := 0x2a8) ho f1.ae.calm hro (by rw [w2a8]; decide) (fun t => x2a8 e _ _)
      (fun t => by unfold memPart; rfl) fun t ht hc => ?_
    refine add_over (r := dig1 a.inst) ho (f1.ae.upd hc f1.ae.arch rfl rfl rfl rfl rfl rfl rfl) rfl f1.fn
      (by simp only [bg]; rw [md_f _ _ f1.ae.f]; exact f1.md) rfl il ?_
    simp only [bg, f1.l, f1.fn, f1.md, gr_of f1.ae.arch]
    exact T
  · refine Ev.bind (h1 (by omega)) fun s1 ⟨f1, il⟩ => ?_
    have T := T1 (by omega)
    have hro := f1.roar
    rw [heq] at hro
    refine Ev.plain (n := 0x2ac) ho f1.ae.calm hro (by rw [w2ac]; decide) (fun t => x2ac e _ _)
      (fun t => by unfold memPart; rfl) fun t ht hc => ?_
    refine sub_over (r := dig1 a.inst) ho (f1.ae.upd hc f1.ae.arch rfl rfl rfl rfl rfl rfl rfl) rfl f1.fn
      (by simp only [bg]; rw [md_f _ _ f1.ae.f]; exact f1.md) rfl il ?_
    simp only [bg, f1.l, f1.fn, f1.md, gr_of f1.ae.arch]
    exact T
  · have h2 := hr.1 (by omega)
    exact Ev.bind (h4 (by omega)) fun s1 f1 => ah_over ho f1 heq (by omega) h2.1 (T2 (.inl (by omega)))
  · have h2 := hr.1 (by omega)
    exact Ev.bind (h4 (by omega)) fun s1 f1 => sh_over ho f1 heq (by omega) h2.1 (T2 (.inl (by omega)))
  · refine Ev.bind (h5 (by omega)) fun s1 f1 => ?_
    have T := T2 (.inr (by omega))
    have hro := f1.roar
    rw [heq] at hro
    refine opx_run_il (n := 0x2a9) ho f1 hro (by rw [w2a9]; decide) (by rw [w2a9]; decide)
      (fun ex s => x2a9 e ex s) (fun s => by unfold memPart; rfl)
      fun s' hc hae hsd hfn hmd il => ?_
    refine add_over (r := dig1 a.inst) ho (hae.upd hc hae.arch rfl rfl rfl rfl rfl rfl rfl) rfl hfn
      (by simp only []; rw [md_f _ _ hae.f]; exact hmd) rfl il ?_
    simp only [bg, hsd, hfn, hmd, gr_of hae.arch]
    exact T
  · refine Ev.bind (h5 (by omega)) fun s1 f1 => ?_
    have T := T2 (.inr (by omega))
    have hro := f1.roar
    rw [heq] at hro
    refine opx_run_il (n := 0x2ad) ho f1 hro (by rw [w2ad]; decide) (by rw [w2ad]; decide)
      (fun ex s => x2ad e ex s) (fun s => by unfold memPart; rfl)
      fun s' hc hae hsd hfn hmd il => ?_
    refine sub_over (r := dig1 a.inst) ho (hae.upd hc hae.arch rfl rfl rfl rfl rfl rfl rfl) rfl hfn
      (by simp only []; rw [md_f _ _ hae.f]; exact hmd) rfl il ?_
    simp only [bg, hsd, hfn, hmd, gr_of hae.arch]
    exact T

/-- At 100: the instruction `w`; 7fffffff at 40. -/
def ovfMem (w : W) (i : Nat) : W :=
  if i = 64 then w else if i = 16 then 0x7fffffff else if i = 27 then 0x200 else 0

/-- The processor at 100 with `v` in register 1 and the mask for overflow on. -/
def startOvf (w v : W) : S :=
  { start (ovfMem w) 0 (fun _ => 0) with
    PMASK := 8, LS := fun k => if k = 3#2 ++ 1#4 then v else 0 }

/-- Its registers and storage. -/
def archOvf (w v : W) : Arch :=
  { arch0 (ovfMem w) 0 (fun _ => 0) with pm := 8, gr := fun r => if r = 1 then v else 0 }

theorem ready_ovf (w v : W) : Ready e64 true (archOvf w v) (startOvf w v) := by
  refine .even ⟨rfl, rfl, rfl, ?_, (fun h => nomatch h), fun h => nomatch h⟩ ?_ (.inl rfl) ?_ ?_ ?_
  · show (0x100#32).toNat ≤ _
    decide
  · show (0#8).toNat < 16
    decide
  · have h1 : (fun r : BitVec 4 => (startOvf w v).LS (3#2 ++ r)) = fun r => if r = 1 then v else 0 := by
      funext r
      have key : ∀ r : BitVec 4, ((3#2 ++ r : BitVec 6) = 3#2 ++ 1#4) ↔ r = 1 := by decide
      show (if (3#2 ++ r : BitVec 6) = 3#2 ++ 1#4 then v else 0) = _
      simp only [key]
    have h2 : (fun r : BitVec 4 => (startOvf w v).LS (2#2 ++ r)) = fun _ => (0 : W) := by
      funext r
      have key : ∀ r : BitVec 4, ¬ (2#2 ++ r : BitVec 6) = 3#2 ++ 1#4 := by decide
      exact if_neg (key r)
    unfold archOf
    rw [h1, h2]
    rfl
  · show (0x100#32).toNat % 4 = 0
    decide
  · show (0x100#32).toNat / 4 = (0x100#32).toNat / 4
    rfl

/-- `LCR 2,1` of the least number, `AR 1,1`, and `A 1,64` with 7fffffff in storage. -/
example (tick : Nat → Bool) : ∃ n s', run e64 tick n (startOvf 0x13210000 0x80000000) = .ok s' ∧
    ∃ b : Arch, (b.gr 2 = 0x80000000 ∧ b.mem 10 = 8 ∧ b.mem 11 = 0x78000102 ∧ b.ia = 0x200) ∧
      (Ready e64 true b s' ∨ Pend e64 true b s') := by
  obtain ⟨n, s', h1, h2⟩ := C168_overflow (v := 2 ^ 31) e64_ok (ready_ovf 0x13210000 0x80000000) ⟨by decide, by decide⟩
    (by unfold Arch.Kept; decide) (by decide) (by decide) (by unfold Arch.reads; decide) (by decide) (by decide) rfl
    (fun h => nomatch h) ⟨by decide, by decide⟩ tick (by simp)
  exact ⟨n, s', h1, _, by decide, h2⟩

example (tick : Nat → Bool) : ∃ n s', run e64 tick n (startOvf 0x1a110000 0x60000000) = .ok s' ∧
    ∃ b : Arch, (b.gr 1 = 0xc0000000 ∧ b.mem 10 = 8 ∧ b.mem 11 = 0x78000102 ∧ b.ia = 0x200) ∧
      (Ready e64 true b s' ∨ Pend e64 true b s') := by
  obtain ⟨n, s', h1, h2⟩ := C168_overflow (v := 0xc0000000) e64_ok (ready_ovf 0x1a110000 0x60000000) ⟨by decide, by decide⟩
    (by unfold Arch.Kept; decide) (by decide) (by decide) (by unfold Arch.reads; decide) (by decide) (by decide) rfl
    (fun h => nomatch h) ⟨by decide, by decide⟩ tick (by simp)
  exact ⟨n, s', h1, _, by decide, h2⟩

example (tick : Nat → Bool) : ∃ n s', run e64 tick n (startOvf 0x5a100040 1) = .ok s' ∧
    ∃ b : Arch, (b.gr 1 = 0x80000000 ∧ b.mem 10 = 8 ∧ b.mem 11 = 0xb8000104 ∧ b.ia = 0x200) ∧
      (Ready e64 true b s' ∨ Pend e64 true b s') := by
  obtain ⟨n, s', h1, h2⟩ := C168_overflow (v := 2 ^ 31) e64_ok (ready_ovf 0x5a100040 1) ⟨by decide, by decide⟩
    (by unfold Arch.Kept; decide) (by decide) (by decide) (by unfold Arch.reads; decide) (by decide) (by decide) rfl
    (fun h => nomatch h) ⟨by decide, by decide⟩ tick (by simp)
  exact ⟨n, s', h1, _, by decide, h2⟩

end Cpu50
end Verif
