import Verif.Cpu50.Words13
import Verif.Cpu50.OpCheck

/-!
# Model 2050: SET SYSTEM MASK

The words 702, 750, 72d, 72f and 92f of `/repo/src/model2050/ros.txt`.
-/

namespace Verif.S360

/-- SET SYSTEM MASK: `v` is the new system mask, bits 0-7 of the PSW. -/
def Arch.setMask (a : Arch) (v : BitVec 8) : Arch :=
  { a with mask := v, sys := v ++ a.sys.extractLsb' 0 24 }

end Verif.S360

namespace Verif.Cpu50

open Verif.S360
attribute [local irreducible] ros putByte byteOf sdrAt

theorem sys_mask (m r : W) (v : B) :
    putByte m 0#2 v &&& 4278190080#32 ||| r &&& 16777215#32 = v ++ r.extractLsb' 0 24 := by
  unfold putByte
  apply BitVec.eq_of_getLsbD_eq; intro i hi
  simp only [BitVec.getLsbD_append, BitVec.getLsbD_extractLsb']
  interval_cases i <;> simp

theorem wait_of {s : S} (h : exc s = false) : s.wait = false := by
  simp only [exc, Bool.or_eq_false_iff] at h
  exact h.1.2

theorem ssm_exec {e : Env} {tk : Bool} {a b : Arch} {i : BitVec 16} {x : W} {s : S} (ho : EnvOk e)
    (h : Op8 e tk a i x s) (hop : (opOf i).toNat = 0x80) (hx : x.toNat < 4 * words e)
    (hpr : a.problem = false) (hb : b = a.setMask (a.byte x.toNat))
    (hw : tk = false → b.mask &&& a.mask = b.mask) (hi : InStore e a) :
    Ev e tk (Bd e tk b) s := by
  have hro := h.roar
  rw [hop] at hro
  refine Ev.wait (n := 0x702) ho h.ae.calm hro (by rw [w702]; decide) (by rw [w702]; decide)
    (fun tu sa ex => x702 e _ _) fun tu sa ex hex hc => ?_
  refine Ev.bind (P := fun s' => Req e tk a i x s' ∧ s'.MB = 0#2 ∧ s'.LB = s.R.setWidth 2 ∧ s'.ROAR = 0x750)
    (.now ⟨Req.mk' ho h.ae h.fn h.md hx rfl rfl rfl rfl hc.qt rfl rfl rfl rfl rfl rfl rfl h.r, rfl, rfl, ?_⟩) ?_
  · show 1872 ||| 2 * (s.AMWP &&& 1#4 != 0#4).toNat + (s.AMWP &&& 1#4 != 0#4).toNat = _
    rw [prob_of h.ae.arch, hpr]; rfl
  rintro s1 ⟨hq, mb1, lb1, ro1⟩
  refine Ev.accWait (n := 0x750) ho hq.ask ro1 (by rw [w750]; decide) fun t ht hc1 => ?_
  have hae := hq.acc hc1
  have hsd := sdr_acc ho hq.ask t
  rw [hq.sar] at hsd
  refine Ev.wait (n := 0x750) ho hc1 ro1 (by rw [w750]; decide) (by rw [w750]; decide)
    (fun tu sa ex => x750 e _ _) fun tu sa ex hex hc2 => ?_
  refine Ev.bind (P := fun s' => AtEnd e tk a s' ∧ s'.MB = 0#2 ∧ byteOf s'.L s'.LB = a.byte x.toNat ∧
    s'.ROAR = 0x72d) (.now ?_) ?_
  · refine ⟨hae.upd (hc2.congr (by unfold memPart; rfl)) hq.arch rfl rfl rfl rfl rfl rfl rfl, mb1, ?_, rfl⟩
    show byteOf (sdrAt (acc t s1)) s1.LB = _
    rw [hsd, lb1, byteOf_eq, low2 h.r, ← hq.arch]; rfl
  rintro s2 ⟨ae2, mb2, l2, ro2⟩
  refine Ev.plain (n := 0x72d) ho ae2.calm ro2 (by rw [w72d]; decide) (fun t => x72d e _ _)
    (fun t => by unfold memPart; rfl) fun t ht hc3 => ?_
  refine Ev.bind (P := fun s' => AtEnd e tk a s' ∧ (∃ m, s'.M = putByte m 0#2 (a.byte x.toNat)) ∧ s'.R = a.sys ∧
    byteOf s'.L s'.LB = a.byte x.toNat ∧ s'.ROAR = 0x72f) (.now ?_) ?_
  · refine ⟨ae2.upd hc3 ae2.arch rfl rfl rfl rfl rfl rfl rfl, ⟨s2.M, ?_⟩, ?_, l2, rfl⟩
    · show putByte s2.M s2.MB (byteOf s2.L s2.LB) = _
      rw [mb2, l2]
    · show s2.LS 23#6 = _
      rw [← ae2.arch]; rfl
  rintro s3 ⟨ae3, ⟨m, m3⟩, r3, l3, ro3⟩
  have hsys : (s3.M &&& 4278190080#32 ||| s3.R &&& 16777215#32 : W) = b.sys := by
    rw [m3, sys_mask, r3, hb]; rfl
  have hmk : byteOf s3.L s3.LB = b.mask := by rw [l3, hb]; rfl
  refine .step _ (fun t _ => by
    rw [cycle_plain e t s3 ae3.calm (by rw [ro3, ho.ros, w72f]; decide), ro3, ho.ros]
    exact x72f e _ _) fun t ht => ?_
  have hbg := ae3.calm.bg t ht
  refine Ev.bind (P := fun s' => AtEnd e tk b s' ∧ s'.ROAR = 0x92f) (.now ⟨ae3.upd ?_ ?_ ?_ ?_ rfl rfl rfl ?_ rfl,
    rfl⟩) ?_
  · refine ⟨hbg.im, hbg.ib, hbg.ud, hbg.nz, hbg.rg, fun h1 => ?_⟩
    refine exc_mono (s := Cpu50.bg t s3) (hbg.qt h1) rfl id id (wait_of (s := Cpu50.bg t s3) (hbg.qt h1)) ?_
    show byteOf s3.L s3.LB &&& s3.MASK = byteOf s3.L s3.LB
    rw [hmk, show s3.MASK = a.mask from congrArg Arch.mask ae3.arch]
    exact hw h1
  · have h1 : archOf { s3 with
        LS := lsPut s3.LS (23#6) (s3.M &&& 4278190080#32 ||| s3.R &&& 16777215#32),
        MASK := byteOf s3.L s3.LB } = { archOf s3 with sys := b.sys, mask := b.mask } := by
      simp only [archOf, hsys, hmk, gr_put23, fr_put23]
      rfl
    exact h1.trans (by rw [ae3.arch, hb]; rfl)
  · rw [hb]; rfl
  · rw [hb]; rfl
  · show lsPut s3.LS 23#6 (s3.M &&& 4278190080#32 ||| s3.R &&& 16777215#32) 30 = _
    exact if_neg (by decide)
  rintro s4 ⟨ae4, ro4⟩
  have hib : InStore e b := by rw [hb]; exact hi.same rfl
  refine Ev.plain (n := 0x92f) ho ae4.calm ro4 (by rw [w92f]; decide) (fun t => x92f e _ _)
    (fun t => by unfold memPart; rfl) fun t ht hc5 => ?_
  exact end_a (n := 0x197) ho (ae4.upd hc5 ae4.arch rfl rfl rfl rfl rfl rfl rfl) hib rfl (by rw [w197, w144])

/-- C164: SET SYSTEM MASK in the supervisor state makes the byte at its operand address the system
mask and changes nothing else, in particular not the rest of the PSW. `hw`: without timer ticks, the
mask allows nothing which was not allowed before (a pending interruption would be taken). -/
theorem C164_set_system_mask {e : Env} {tk : Bool} {a : Arch} {s : S} (ho : EnvOk e)
    (h : Ready e tk a s) (hia : InStore e a) (hop : opOf a.inst = 0x80#8) (hpr : a.problem = false)
    (hx : a.operand.toNat < 4 * words e)
    (hw : tk = false → a.byte a.operand.toNat &&& a.mask = a.byte a.operand.toNat)
    (hi : InStore e a.next) (tick : Nat → Bool) (ht : ∀ i, tick i = true → tk = true) :
    ∃ n s', run e tick n s = .ok s' ∧
      (Ready e tk (a.next.setMask (a.byte a.operand.toNat)) s' ∨
       Pend e tk (a.next.setMask (a.byte a.operand.toNat)) s') := by
  have h1 : (opOf a.inst).toNat = 0x80 := by rw [hop]; rfl
  rw [operand_rs (by omega)] at *
  rw [next4 (by omega) (by omega)] at *
  exact ((fetch_rx ho h (by omega) (by omega) hia.rg).bind fun s1 h2 =>
    (to_op8 ho h2 (by omega)).bind fun s2 h3 => ssm_exec ho h3 h1 hx hpr rfl hw hi).run tick ht

/-- The rest of the PSW is kept, and the mask in the stored PSW is the mask in use. -/
theorem C164_kept (a : Arch) (v : BitVec 8) (h : a.Kept) : (a.setMask v).Kept ∧
    (a.setMask v).sys.extractLsb' 0 24 = a.sys.extractLsb' 0 24 := by
  unfold Arch.Kept at *
  constructor
  · apply BitVec.eq_of_getLsbD_eq; intro i hi
    have h2 : (a.sys.extractLsb' 16 16).getLsbD i = (a.mask ++ a.key ++ a.amwp).getLsbD i := by rw [h]
    simp only [Arch.setMask, BitVec.getLsbD_append, BitVec.getLsbD_extractLsb'] at h2 ⊢
    interval_cases i <;> simp at h2 ⊢ <;> exact h2
  · apply BitVec.eq_of_getLsbD_eq; intro i hi
    simp only [Arch.setMask, BitVec.getLsbD_append, BitVec.getLsbD_extractLsb']
    interval_cases i <;> simp

/-- At 100: `SSM 203`. -/
def ssmMem : Nat → W := fun i => if i = 0x40 then 0x80000203 else if i = 0x80 then 0x123456a5 else 0

example (tick : Nat → Bool) : ∃ n s', run e64 tick n (start ssmMem 0 fun _ => 0) = .ok s' ∧
    ∃ b : Arch, (b.mask = 0xa5 ∧ b.sys = 0xa5000000 ∧ b.ia = 0x104) ∧
      (Ready e64 true b s' ∨ Pend e64 true b s') := by
  obtain ⟨n, s', h1, h2⟩ := C164_set_system_mask (tk := true) (a := arch0 ssmMem 0 fun _ => 0) e64_ok
    (start_ready true ssmMem 0 fun _ => 0) ⟨by decide, by decide⟩ (by decide) (by decide) (by decide)
    (fun h => nomatch h) ⟨by decide, by decide⟩ tick (by simp)
  exact ⟨n, s', h1, _, by decide, h2⟩

end Verif.Cpu50
