import Verif.Cpu50.RrOps
import Verif.Cpu50.Words3

/-!
# Model 2050: RX instructions with a word operand

`op5_exec`: operation codes 50-5f.
-/

namespace Verif.Cpu50
open Verif.S360
attribute [local irreducible] ros

/-- The operand at `x` has been asked for. -/
structure OpX (e : Env) (tk : Bool) (a : Arch) (i : BitVec 16) (x : W) (s : S) : Prop where
  ask : Asks e tk s
  ud : s.updD = false
  arch : archOf s = a
  f : s.F.toNat < 16
  odd : a.ia.toNat % 4 = 2 → s.REFETCH = false → s.LS 30 = a.mem (a.ia.toNat / 4) ∧
    s.SYLS1 = (s.LS 30 &&& 0xc000#32 == 0#32)
  fn : s.FN = 3#2
  bs : s.BS = 15#4
  mb : s.MB = 3#2
  md : s.MD = dig1 i
  l : s.L = a.gr (dig1 i)
  sar : s.SAR = x
  roar : s.ROAR = 640 ||| ((opOf i).toNat % 16) <<< 2 ||| 1
  il : s.ILC = 2#2

theorem and3_mod (x : W) : (x &&& 3#32 = 0#32) ↔ x.toNat % 4 = 0 := by
  have h : (x &&& 3#32).toNat = x.toNat % 4 := by
    rw [BitVec.toNat_and]; exact Nat.and_two_pow_sub_one_eq_mod x.toNat 2
  rw [← h]
  constructor
  · intro h1; rw [h1]; rfl
  · intro h1; exact BitVec.eq_of_toNat_eq h1

/-- The words 116, 117 and 123, with the address `v` before it is cut to 24 bits. -/
theorem to_opx_last {e : Env} {tk : Bool} {a : Arch} {i : BitVec 16} {v : W} {s : S} {n : Nat}
    (ho : EnvOk e) (h : AtEnd e tk a s) (fn : s.FN = 3#2) (bs : s.BS = 15#4) (mb : s.MB = 3#2)
    (md : s.MD = dig1 i) (il : s.ILC = 2#2) (lo : nib s.M 6 = (opOf i).toNat % 16)
    (hw : Arch.within (4 * words e) 4 (v &&& 0xffffff#32)) (hr : s.ROAR = n)
    (hint : (interlocked (Cpu50.ros n).tr || usesStore (Cpu50.ros n)) = true)
    (h29 : ((Cpu50.ros n).tr == 29) = false)
    (hx : ∀ tu sa ex, ∃ u w alu aob, exec e (Cpu50.ros n) ex
      { s with timUp := tu, SDR := sdrAt s, SA := sa, ms := .w1 } = .ok { s with
        timUp := tu, SDR := sdrAt s, SA := sa, ms := .w1, R := v, L := s.LS (s.FN ++ s.MD),
        SAR := v &&& 16777215#32, alu := alu, aob := aob, u := u, w := w, EDST := 3#2,
        LSA := s.FN ++ s.MD, initMem := s.initMem || v &&& 16777215#32 &&& 3#32 == 0#32,
        ROAR := if v &&& 16777215#32 &&& 3#32 = 0#32 then 640 ||| nib s.M 6 <<< 2 ||| 1
          else 450 }) :
    Ev e tk (fun s' => OpX e tk a i (v &&& 0xffffff#32) s' ∧ s'.REFETCH = s.REFETCH) s := by
  choose u w alu aob hx using hx
  simp only [Arch.within, Bool.and_eq_true, beq_iff_eq, decide_eq_true_eq] at hw
  have h3 := (and3_mod _).2 hw.1
  refine Ev.wait ho h.calm hr hint h29 hx fun tu sa ex hex hc => .now ?_
  refine ⟨⟨⟨?_, hc.ib, rfl, ?_, ?_, hc.qt⟩, hc.ud, h.arch, h.f, h.odd, fn, bs, mb, md, ?_, rfl, ?_, il⟩, rfl⟩
  · show (_ || _) = true
    simp [h3]
  · have := ho.top
    have := hw.2
    show (v &&& 16777215#32).toNat ≤ _
    omega
  · intro h1
    have h2 := hc.ud
    rw [show s.updD = true from h1] at h2; cases h2
  · show s.LS (s.FN ++ s.MD) = _
    rw [fn, md, gr_of h.arch]
  · show (if _ then _ else _) = _
    rw [if_pos h3, lo]

theorem to_opx0 {e : Env} {tk : Bool} {a : Arch} {i i1 : BitVec 16} {s : S} (ho : EnvOk e)
    (h : FetRX e tk a i i1 s) (hop : (opOf i).toNat / 16 = 5)
    (hw : Arch.within (4 * words e) 4
      (ea a (dig2 i) (i1.extractLsb' 12 4) (i1.extractLsb' 0 12))) :
    Ev e tk (fun s' => OpX e tk a i (ea a (dig2 i) (i1.extractLsb' 12 4) (i1.extractLsb' 0 12)) s' ∧
      s'.REFETCH = s.REFETCH) s := by
  have hro := h.roar
  have h64 : (opOf i).toNat / 64 = 1 := by omega
  rw [hop, decide_eq_true h64, Bool.and_true] at hro
  have hgx : s.LS (s.FN ++ s.J) = a.gr (dig2 i) := by
    rw [h.j, show s.FN = 3#2 from h.fn, gr_of h.arch]
  have hd := h.d
  have h0 := h.s0
  have h1 := h.s1
  have hl := h.l
  unfold ea at hw ⊢
  generalize hB : i1.extractLsb' 12 4 = b at *
  generalize hD : (i1.extractLsb' 0 12).setWidth 32 = d at *
  by_cases hx : dig2 i = 0
  · rw [if_pos hx] at hw ⊢
    rw [hx] at h0
    by_cases hb : b = 0
    · rw [if_pos hb] at hw ⊢
      rw [hb] at h1
      rw [h0, h1] at hro
      have hz : (0 : W) + 0 + d = s.M &&& 65535#32 := by rw [hd]; simp
      rw [hz] at hw ⊢
      refine to_opx_last ho h.atEnd h.fn h.bs h.mb h.md h.ilc h.lo hw (n := 0x117) hro
        (by rw [w117]; decide) (by rw [w117]; decide)
        fun tu sa ex => ⟨_, _, _, _, x117 e _ _⟩
    · rw [if_neg hb] at hw ⊢
      rw [show (b == 0) = false by simpa using hb] at h1
      rw [h0, h1] at hro
      have hz : (0 : W) + a.gr b + d = s.L + (s.M &&& 65535#32) := by rw [hd, hl]; simp
      rw [hz] at hw ⊢
      refine to_opx_last ho h.atEnd h.fn h.bs h.mb h.md h.ilc h.lo hw (n := 0x116) hro
        (by rw [w116]; decide) (by rw [w116]; decide)
        fun tu sa ex => ⟨_, _, _, _, x116 e _ _⟩
  · rw [if_neg hx] at hw ⊢
    rw [show (dig2 i == 0) = false by simpa using hx] at h0
    by_cases hb : b = 0
    · rw [if_pos hb] at hw ⊢
      rw [hb] at h1
      rw [h0, h1] at hro
      have hz : a.gr (dig2 i) + 0 + d = s.LS (s.FN ++ s.J) + (s.M &&& 65535#32) := by
        rw [hd, hgx]; simp
      rw [hz] at hw ⊢
      refine Ev.plain ho h.calm (n := 0x115) hro (by rw [w115]; decide) (fun t => x115 e _ _)
        (fun t => by unfold memPart; rfl) fun t ht hc => ?_
      exact to_opx_last ho (h.atEnd.upd hc h.arch rfl rfl rfl rfl rfl rfl rfl) h.fn h.bs h.mb
        h.md h.ilc h.lo hw (n := 0x123) rfl (by rw [w123]; decide) (by rw [w123]; decide)
        fun tu sa ex => ⟨_, _, _, _, x123 e _ _⟩
    · rw [if_neg hb] at hw ⊢
      rw [show (b == 0) = false by simpa using hb] at h1
      rw [h0, h1] at hro
      have hz : a.gr (dig2 i) + a.gr b + d =
          s.LS (s.FN ++ s.J) + (s.L + (s.M &&& 65535#32)) := by
        rw [hd, hgx, hl, BitVec.add_assoc]
      rw [hz] at hw ⊢
      refine Ev.plain ho h.calm (n := 0x114) hro (by rw [w114]; decide) (fun t => x114 e _ _)
        (fun t => by unfold memPart; rfl) fun t ht hc => ?_
      exact to_opx_last ho (h.atEnd.upd hc h.arch rfl rfl rfl rfl rfl rfl rfl) h.fn h.bs h.mb
        h.md h.ilc h.lo hw (n := 0x123) rfl (by rw [w123]; decide) (by rw [w123]; decide)
        fun tu sa ex => ⟨_, _, _, _, x123 e _ _⟩

theorem to_opx {e : Env} {tk : Bool} {a : Arch} {i i1 : BitVec 16} {s : S} (ho : EnvOk e)
    (h : FetRX e tk a i i1 s) (hop : (opOf i).toNat / 16 = 5)
    (hw : Arch.within (4 * words e) 4
      (ea a (dig2 i) (i1.extractLsb' 12 4) (i1.extractLsb' 0 12))) :
    Ev e tk (OpX e tk a i (ea a (dig2 i) (i1.extractLsb' 12 4) (i1.extractLsb' 0 12))) s :=
  (to_opx0 ho h hop hw).bind fun _ h => .now h.1

theorem sdr_acc {e : Env} {tk : Bool} {s : S} (ho : EnvOk e) (h : Asks e tk s) (t : Bool) :
    sdrAt (acc t s) = s.mem (s.SAR.toNat / 4) := by
  have h1 := h.rg
  have h2 := ho.top
  have h3 := ho.lim
  simp only [sdrAt, acc, true_or, if_true]
  show s.mem (memIx (s.SAR &&& 0x3ffff)) = _
  rw [memIx_and, Nat.mod_eq_of_lt (by omega)]

/-- A word which uses the operand: it runs when the operand is in the storage data register. -/
theorem opx_run {e : Env} {tk : Bool} {a : Arch} {i : BitVec 16} {x : W} {s : S} {n : Nat}
    {P : S → Prop} (ho : EnvOk e) (h : OpX e tk a i x s) (hr : s.ROAR = n)
    (hp : usesStore (Cpu50.ros n) = true) (h29 : ((Cpu50.ros n).tr == 29) = false)
    {f : S → S} (hx : ∀ ex s, exec e (Cpu50.ros n) ex s = .ok (f s))
    (hq : ∀ s, memPart (f s) = memPart s)
    (k : ∀ s', Calm e tk (f s') → AtEnd e tk a s' → s'.SDR = a.mem (x.toNat / 4) →
      s'.FN = 3#2 → s'.BS = 15#4 → s'.MB = 3#2 → s'.MD = dig1 i → s'.L = a.gr (dig1 i) →
      Ev e tk P (f s')) : Ev e tk P s := by
  refine Ev.accWait ho h.ask hr (by rw [hp]; rfl) fun t ht hc => ?_
  refine Ev.wait ho hc hr (by rw [hp]; simp) h29
    (fun tu sa ex => hx ex _) fun tu sa ex hex hc2 => ?_
  refine k _ (hc2.congr (hq _)) ⟨hc2, h.arch, h.f, rfl, ?_⟩ ?_ h.fn h.bs h.mb h.md h.l
  · intro h1 h2
    refine h.odd h1 ?_
    simp only [acc, h.ud, Bool.false_and, Bool.or_false] at h2
    exact h2
  · show sdrAt (acc t s) = _
    rw [sdr_acc ho h.ask, h.sar, ← h.arch]; rfl

/-- Op codes 54-5f. -/
theorem opx_exec {e : Env} {tk : Bool} {a a' : Arch} {i : BitVec 16} {x : W} {s : S}
    (ho : EnvOk e) (h : OpX e tk a i x s) (hop : (opOf i).toNat / 16 = 5)
    (hv : rx.rxWord a (opOf i).toNat (dig1 i) (a.mem (x.toNat / 4)) = some a')
    (hi : InStore e a) : Ev e tk (Bd e tk a') s := by
  have hro := h.roar
  unfold rx.rxWord at hv
  split at hv <;> rename_i heq <;>
    first
      | (rw [heq] at hop hro
         first
           | exact absurd hop (by decide)
           | skip)
      | exact nomatch hv
  · obtain rfl := Option.some.inj hv
    refine opx_run (n := 0x291) ho h hro (by rw [w291]; decide) (by rw [w291]; decide)
      (fun ex s => x291 e ex s) (fun s => by unfold memPart; rfl)
      fun s' hc hae hsd hfn hbs hmb hmd hl => ?_
    obtain rfl := hae.arch
    rw [← hsd, ← hl]
    exact logic_tail (a := archOf s') ho (hae.upd hc rfl rfl rfl rfl rfl rfl rfl rfl) hi rfl hfn hmd
      (by simp only [hmb]; rfl) (.inr (.inl rfl))
  · obtain rfl := Option.some.inj hv
    refine opx_run (n := 0x295) ho h hro (by rw [w295]; decide) (by rw [w295]; decide)
      (fun ex s => x295 e ex s) (fun s => by unfold memPart; rfl)
      fun s' hc hae hsd hfn hbs hmb hmd hl => ?_
    obtain rfl := hae.arch
    have hg : s'.LS (s'.FN ++ s'.MD) = (archOf s').gr (dig1 i) := by rw [hfn, hmd]; rfl
    rw [← hsd, ← hg]
    exact cl_tail (a := archOf s') ho (hae.upd hc rfl rfl rfl rfl rfl rfl rfl rfl) hi rfl hbs
  · obtain rfl := Option.some.inj hv
    refine opx_run (n := 0x299) ho h hro (by rw [w299]; decide) (by rw [w299]; decide)
      (fun ex s => x299 e ex s) (fun s => by unfold memPart; rfl)
      fun s' hc hae hsd hfn hbs hmb hmd hl => ?_
    obtain rfl := hae.arch
    rw [← hsd, ← hl]
    exact logic_tail (a := archOf s') ho (hae.upd hc rfl rfl rfl rfl rfl rfl rfl rfl) hi rfl hfn hmd
      (by simp only [hmb]; rfl) (.inl rfl)
  · obtain rfl := Option.some.inj hv
    refine opx_run (n := 0x29d) ho h hro (by rw [w29d]; decide) (by rw [w29d]; decide)
      (fun ex s => x29d e ex s) (fun s => by unfold memPart; rfl)
      fun s' hc hae hsd hfn hbs hmb hmd hl => ?_
    obtain rfl := hae.arch
    rw [← hsd, ← hl]
    exact logic_tail (a := archOf s') ho (hae.upd hc rfl rfl rfl rfl rfl rfl rfl rfl) hi rfl hfn hmd
      (by simp only [hmb]; rfl) (.inr (.inr rfl))
  · obtain rfl := Option.some.inj hv
    refine opx_run (n := 0x2a1) ho h hro (by rw [w2a1]; decide) (by rw [w2a1]; decide)
      (fun ex s => x2a1 e ex s) (fun s => by unfold memPart; rfl)
      fun s' hc hae hsd hfn hbs hmb hmd hl => ?_
    obtain rfl := hae.arch
    rw [← hsd]
    refine end_a (n := 0x197) (a := (archOf s').put (dig1 i) s'.SDR) ho
      (hae.upd hc ?_ rfl rfl rfl rfl rfl ?_ rfl) (hi.same rfl) rfl (by rw [w197, w144])
    · simp only [archOf, hfn, hmd, gr_put, fr_put, sys_put, Arch.put]
    · simp only [hfn, ls30_put]
  · obtain rfl := Option.some.inj hv
    refine opx_run (n := 0x2a5) ho h hro (by rw [w2a5]; decide) (by rw [w2a5]; decide)
      (fun ex s => x2a5 e ex s) (fun s => by unfold memPart; rfl)
      fun s' hc hae hsd hfn hbs hmb hmd hl => ?_
    obtain rfl := hae.arch
    have hg : s'.LS (s'.FN ++ s'.MD) = (archOf s').gr (dig1 i) := by rw [hfn, hmd]; rfl
    rw [← hsd, ← hg]
    exact cmp_tail (a := archOf s') ho (hae.upd hc rfl rfl rfl rfl rfl rfl rfl rfl) hi rfl
  · refine opx_run (n := 0x2a9) ho h hro (by rw [w2a9]; decide) (by rw [w2a9]; decide)
      (fun ex s => x2a9 e ex s) (fun s => by unfold memPart; rfl)
      fun s' hc hae hsd hfn hbs hmb hmd hl => ?_
    obtain rfl := hae.arch
    have hg : s'.LS (s'.FN ++ s'.MD) = (archOf s').gr (dig1 i) := by rw [hfn, hmd]; rfl
    rw [← hsd, ← hg] at hv
    exact add_tail (a := archOf s') (r := dig1 i) ho (hae.upd hc rfl rfl rfl rfl rfl rfl rfl rfl) hi rfl hfn
      (by simp only []; rw [md_f _ _ hae.f]; exact hmd) rfl hv
  · refine opx_run (n := 0x2ad) ho h hro (by rw [w2ad]; decide) (by rw [w2ad]; decide)
      (fun ex s => x2ad e ex s) (fun s => by unfold memPart; rfl)
      fun s' hc hae hsd hfn hbs hmb hmd hl => ?_
    obtain rfl := hae.arch
    have hg : s'.LS (s'.FN ++ s'.MD) = (archOf s').gr (dig1 i) := by rw [hfn, hmd]; rfl
    rw [← hsd, ← hg] at hv
    exact sub_tail (a := archOf s') (r := dig1 i) ho (hae.upd hc rfl rfl rfl rfl rfl rfl rfl rfl) hi rfl hfn
      (by simp only []; rw [md_f _ _ hae.f]; exact hmd) rfl hv
  · obtain rfl := Option.some.inj hv
    refine opx_run (n := 0x2b9) ho h hro (by rw [w2b9]; decide) (by rw [w2b9]; decide)
      (fun ex s => x2b9 e ex s) (fun s => by unfold memPart; rfl)
      fun s' hc hae hsd hfn hbs hmb hmd hl => ?_
    obtain rfl := hae.arch
    have hg : s'.LS (s'.FN ++ s'.MD) = (archOf s').gr (dig1 i) := by rw [hfn, hmd]; rfl
    rw [← hsd, ← hg]
    exact al_tail (a := archOf s') ho (hae.upd hc rfl rfl rfl rfl rfl rfl rfl rfl) hi rfl hfn hmd
  · obtain rfl := Option.some.inj hv
    refine opx_run (n := 0x2bd) ho h hro (by rw [w2bd]; decide) (by rw [w2bd]; decide)
      (fun ex s => x2bd e ex s) (fun s => by unfold memPart; rfl)
      fun s' hc hae hsd hfn hbs hmb hmd hl => ?_
    obtain rfl := hae.arch
    have hg : s'.LS (s'.FN ++ s'.MD) = (archOf s').gr (dig1 i) := by rw [hfn, hmd]; rfl
    rw [← hsd, ← hg]
    exact sl_tail (a := archOf s') ho (hae.upd hc rfl rfl rfl rfl rfl rfl rfl rfl) hi rfl hfn hmd

end Verif.Cpu50
