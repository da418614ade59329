import Verif.Cpu50.Tails3

/-!
# Model 2050: RR instructions

From the first microinstruction of an operation to the fetch of the next instruction.
-/

namespace Verif.Cpu50
open Verif.S360
attribute [local irreducible] ros

/-- Word 245: compare. -/
theorem cmp_tail {e : Env} {tk : Bool} {a : Arch} {s : S} (ho : EnvOk e)
    (h : AtEnd e tk a s) (hi : InStore e a) (hr : s.ROAR = 0x245) :
    Ev e tk (Bd e tk (a.setCC (ccCmp s.R.toInt s.L.toInt))) s := by
  refine Ev.plain ho h.calm hr (by rw [w245]; decide) (fun t => x245 e _ _)
    (fun t => by unfold memPart; rfl) fun t ht hc => ?_
  obtain rfl := h.arch
  refine cmp_end (l := s.L) (r := s.R) ho (h.upd hc ?_ rfl rfl rfl rfl rfl rfl rfl) hi rfl ?_
  · simp only [archOf, bg, Arch.setCC, cc_sign, sub_eq]
  · simp only [bg, ovf_sub]
    cases decide (fits (s.R.toInt - s.L.toInt)) <;> rfl

theorem jump_rg {e : Env} {a : Arch} {v : W} (ho : EnvOk e) (hi : InStore e (a.jump v)) :
    ¬ e.memMax < v &&& 16777215#32 := by
  have h := hi.rg
  have h2 : (a.jump v).ia = v &&& 16777215#32 := rfl
  rw [h2] at h
  have := ho.top
  rw [BitVec.lt_def]; omega

/-- After word 1c6 or 715. -/
theorem branch_end {e : Env} {tk : Bool} {a : Arch} {s s' : S} {ex : Bool} (ho : EnvOk e)
    (hc : Calm e tk s) (hf : s.F.toNat < 16) {v : W} (hi : InStore e (a.jump v)) (hex : tk = false → ex = false)
    (hq : tk = false → exc s' = false) (hms : s'.ms = .w1)
    (harch : archOf s' = a) (hR : s'.R = v) (hsar : s'.SAR = v &&& 16777215#32)
    (h1 : s'.initBump = s.initBump) (h2 : s'.updD = s.updD) (hF : s'.F = s.F)
    (h3 : s'.St.s3 = (v &&& 2#32 != 0#32))
    (him : s'.initMem = (s.initMem || !decide (e.memMax < v &&& 16777215#32)))
    (hroar : s'.ROAR = 256 ||| 2 + ex.toNat) : Bd e tk (a.jump v) s' := by
  have hle := jump_rg ho hi
  have hrg := hi.rg
  have htop := ho.top
  have hud : s'.updD = false := by rw [h2]; exact hc.ud
  have ask : Asks e tk s' := by
    refine ⟨by rw [him]; simp [hle], by rw [h1]; exact hc.ib, hms, ?_, ?_, hq⟩
    · rw [hsar]
      have h2 : (a.jump v).ia = v &&& 16777215#32 := rfl
      rw [← h2]; omega
    · intro h4; rw [hud] at h4; cases h4
  cases ex with
  | true =>
    refine .inr ⟨?_, .inl ask, .inr (.inr ⟨hroar, by rw [harch, hR]⟩)⟩
    cases tk with
    | true => rfl
    | false => exact absurd (hex rfl) (by decide)
  | false =>
    exact .inl (.branch ask
      (by rw [hF]; exact hf) hroar (by rw [harch, hR]) hi.ev hsar hud (by rw [h3, hR]))

/-- Word 1c6: branch to the address in `L`. -/
theorem br_tail0 {e : Env} {tk : Bool} {a : Arch} {s : S} (ho : EnvOk e)
    (h : Calm e tk s) (ha : archOf s = a) (hf : s.F.toNat < 16) (hi : InStore e (a.jump s.L))
    (hr : s.ROAR = 0x1c6) : Ev e tk (Bd e tk (a.jump s.L)) s := by
  refine Ev.wait ho h hr (by rw [w1c6]; decide) (by rw [w1c6]; decide)
    (fun tu sa ex => x1c6 e _ _) fun tu sa ex hex hc => .now ?_
  exact branch_end ho h hf hi hex hc.qt rfl ha rfl rfl rfl rfl rfl rfl rfl rfl

theorem br_tail {e : Env} {tk : Bool} {a : Arch} {s : S} (ho : EnvOk e)
    (h : AtEnd e tk a s) (hi : InStore e (a.jump s.L)) (hr : s.ROAR = 0x1c6) :
    Ev e tk (Bd e tk (a.jump s.L)) s := br_tail0 ho h.calm h.arch h.f hi hr

/-- Word 715: branch to the address in `R`. -/
theorem br_tail2 {e : Env} {tk : Bool} {a : Arch} {s : S} (ho : EnvOk e)
    (h : AtEnd e tk a s) (hi : InStore e (a.jump s.R)) (hr : s.ROAR = 0x715) :
    Ev e tk (Bd e tk (a.jump s.R)) s := by
  refine Ev.wait ho h.calm hr (by rw [w715]; decide) (by rw [w715]; decide)
    (fun tu sa ex => x715 e _ _) fun tu sa ex hex hc => .now ?_
  exact branch_end ho h.calm h.f hi hex hc.qt rfl h.arch rfl rfl rfl rfl rfl rfl rfl rfl

/-- Decrement and branch, from word 718: the count is in `R`, the address in `L`. -/
theorem bct_tail {e : Env} {tk : Bool} {a a' : Arch} {r : BitVec 4} {s : S} (ho : EnvOk e)
    (h : AtEnd e tk a s) (hi : InStore e a') (hr : s.ROAR = 0x718) (hn : s.FN = 3#2)
    (hd : s.MD = r) (hb : s.BS = 15#4)
    (ha : a' = if s.St.s0 = true ∨ s.R = 1 then a.put r (s.R - 1)
      else (a.put r (s.R - 1)).jump s.L) : Ev e tk (Bd e tk a') s := by
  refine Ev.plain ho h.calm hr (by rw [w718]; decide) (fun t => x718 e _ _)
    (fun t => by unfold memPart; rfl) fun t ht hc => ?_
  obtain rfl := h.arch
  have hdec : 4294967295#32 + s.R = s.R - 1#32 := by
    rw [BitVec.sub_eq_add_neg, BitVec.add_comm]; rfl
  have harch : ∀ s' : S, s'.LS = lsPut s.LS (3#2 ++ r) (s.R - 1#32) →
      archOf { s with LS := s'.LS } = (archOf s).put r (s.R - 1#32) := by
    intro s' h1
    simp only [archOf, h1, gr_put, fr_put, sys_put, Arch.put]
  have hend : AtEnd e tk ((archOf s).put r (s.R - 1#32)) _ := h.upd hc (by
      simp only [archOf, bg, hn, hd, gr_put, fr_put, sys_put, Arch.put, hdec]) rfl rfl rfl rfl rfl
      (by simp only [bg, hn, ls30_put]) rfl
  rcases Bool.eq_false_or_eq_true s.St.s0 with h0 | h0
  · rw [if_pos (.inl h0)] at ha
    subst ha
    refine end_a (n := 0x1c7) ho hend hi ?_ (by rw [w1c7, w144])
    simp only [bg, h0]; rfl
  · refine Ev.plain ho hc (n := 0x1c5) (by simp only [bg, h0]; rfl) (by rw [w1c5]; decide)
      (fun t => x1c5 e _ _) (fun t => by unfold memPart; rfl) fun t2 ht2 hc2 => ?_
    have hend2 := hend.upd hc2 hend.arch rfl rfl rfl rfl rfl rfl rfl
    by_cases h1 : s.R = 1#32
    · rw [if_pos (.inr h1)] at ha
      subst ha
      refine end_a (n := 0x717) ho hend2 hi ?_ (by decide +kernel)
      simp only [bg, h1, hb]; rfl
    · rw [if_neg (fun h2 => h2.elim (fun h3 => by rw [h0] at h3; cases h3) h1)] at ha
      subst ha
      refine br_tail2 ho hend2 hi ?_
      have h3 : ¬ (s.R - 1#32 = 0#32) := fun h4 => h1 (eq_of_sub h4)
      have hall : ∀ x : W, x &&& 0xffffffff#32 = x := fun x => by
        have h : (0xffffffff#32 : W) = BitVec.allOnes 32 := rfl
        rw [h, BitVec.and_allOnes]
      show 1812 ||| 2 * (4294967295#32 + s.R &&& bsMask s.BS == 0#32).toNat + 1 = _
      rw [hb, bs15, hall, hdec, beq_eq_false_iff_ne.2 h3]; rfl

theorem link_eq (m h : W) (ilc cc : BitVec 2) (pm : BitVec 4) (ia : W) (i : BitVec 2)
    (hh : h &&& 16777215#32 = ia &&& 16777215#32) (hi : i = 0#2) :
    (putByte m i (BitVec.setWidth 8 ilc <<< 6 ||| BitVec.setWidth 8 cc <<< 4 |||
      BitVec.setWidth 8 pm) &&& 4278190080#32 ||| h &&& 16777215#32) =
      ilc ++ cc ++ pm ++ ia.extractLsb' 0 24 := by
  rw [hh, hi]
  apply BitVec.eq_of_getLsbD_eq
  intro i hi
  rw [show (ilc ++ cc ++ pm ++ ia.extractLsb' 0 24 : W).getLsbD i = _ from BitVec.getLsbD_append]
  simp only [BitVec.getLsbD_append]
  interval_cases i <;> simp [putByte]

/-- Branch and link, from word 10a: the address is in `L`. -/
theorem bal_tail {e : Env} {tk : Bool} {a : Arch} {r : BitVec 4} {s : S} (ho : EnvOk e)
    (h : AtEnd e tk a s) (hi : InStore e (a.jump s.L)) (hr : s.ROAR = 0x10a) (hn : s.FN = 3#2)
    (hd : s.MD = r) {k : BitVec 2} (hl : s.M &&& 4278190080#32 ||| s.R &&& 16777215#32 = link a k) :
    Ev e tk (Bd e tk ((a.put r (link a k)).jump s.L)) s := by
  refine Ev.plain ho h.calm hr (by rw [w10a]; decide) (fun t => x10a e _ _)
    (fun t => by unfold memPart; rfl) fun t ht hc => ?_
  obtain rfl := h.arch
  refine br_tail (a := (archOf s).put r _) ho (h.upd hc ?_ rfl rfl rfl rfl rfl ?_ rfl) (hi.same rfl) rfl
  · simp only [archOf, bg, hn, hd, gr_put, fr_put, sys_put, Arch.put]
    rw [hl]; rfl
  · simp only [bg, hn, ls30_put]

end Verif.Cpu50
