import Verif.Cpu50.Tails
import Verif.Cpu50.Words3

/-!
# Model 2050: last microinstructions, complement, compare and logical operations
-/

namespace Verif.Cpu50
open Verif.S360
attribute [local irreducible] ros

/-- Word 21d: overflow of a complement. -/
theorem neg_over {e : Env} {tk : Bool} {a a' : Arch} {s : S} (ho : EnvOk e) (h : AtEnd e tk a s)
    (hi : InStore e a) (hr : s.ROAR = 0x21d) (hm : byteOf s.M s.MB = 8#8)
    (hp : a.pm.getLsbD 3 = false) (ha : a.setCC 3 = a') : Ev e tk (Bd e tk a') s := by
  refine Ev.plain ho h.calm hr (by rw [w21d]; decide) (fun t => x21d e _ _)
    (fun t => by unfold memPart; rfl) fun t ht hc => ?_
  obtain rfl := h.arch
  exact ovf_tail ho (h.upd hc rfl rfl rfl rfl rfl rfl rfl rfl) hi rfl hm rfl hp ha

/-- Word 21e: complement. -/
theorem neg_tail {e : Env} {tk : Bool} {a a' : Arch} {r : BitVec 4} {s : S} (ho : EnvOk e)
    (h : AtEnd e tk a s) (hi : InStore e a) (hr : s.ROAR = 0x21e) (hn : s.FN = 3#2)
    (hd : s.MD = r) (hm : byteOf s.M s.MB = 8#8)
    (hv : fixed a r (-s.L.toInt) = some a') : Ev e tk (Bd e tk a') s := by
  refine Ev.plain ho h.calm hr (by rw [w21e]; decide) (fun t => x21e e _ _)
    (fun t => by unfold memPart; rfl) fun t ht hc => ?_
  obtain rfl := h.arch
  have hov := ovf_neg s.L
  by_cases hfit : fits (-s.L.toInt)
  · rw [fixed_fits hfit] at hv
    obtain rfl := Option.some.inj hv
    refine end_a (n := 0x21c) ho (h.upd hc ?_ rfl rfl rfl rfl rfl ?_ rfl) (hi.same rfl) ?_
      (by rw [w21c, w144])
    · rw [ofInt_neg, ← neg_toInt hfit]
      simp only [archOf, bg, hn, hd, gr_put, fr_put, sys_put, Arch.put, Arch.setCC, cc_sign, neg_eq]
    · simp only [bg, hn, ls30_put]
    · simp only [bg, hov, hfit]; rfl
  · obtain ⟨hp, rfl⟩ := fixed_over hfit hv
    refine neg_over ho (h.upd hc rfl rfl rfl rfl rfl rfl ?_ rfl) (hi.same rfl) ?_ hm hp ?_
    · simp only [bg, hn, ls30_put]
    · simp only [bg, hov, hfit]; rfl
    · rw [ofInt_neg]
      simp only [archOf, bg, hn, hd, gr_put, fr_put, sys_put, Arch.put, Arch.setCC, neg_eq]

/-- Word 28c: load complement. -/
theorem lcr_tail {e : Env} {tk : Bool} {a a' : Arch} {r : BitVec 4} {s : S} (ho : EnvOk e)
    (h : AtEnd e tk a s) (hi : InStore e a) (hr : s.ROAR = 0x28c) (hn : s.FN = 3#2)
    (hd : s.MD = r) (hv : fixed a r (-s.L.toInt) = some a') : Ev e tk (Bd e tk a') s := by
  refine Ev.plain ho h.calm hr (by rw [w28c]; decide) (fun t => x28c e _ _)
    (fun t => by unfold memPart; rfl) fun t ht hc => ?_
  obtain rfl := h.arch
  have hov := ovf_neg s.L
  by_cases hfit : fits (-s.L.toInt)
  · rw [fixed_fits hfit] at hv
    obtain rfl := Option.some.inj hv
    refine end_a (n := 0x21c) ho (h.upd hc ?_ rfl rfl rfl rfl rfl ?_ rfl) (hi.same rfl) ?_
      (by rw [w21c, w144])
    · rw [ofInt_neg, ← neg_toInt hfit]
      simp only [archOf, bg, hn, hd, gr_put, fr_put, sys_put, Arch.put, Arch.setCC, cc_sign, neg_eq]
    · simp only [bg, hn, ls30_put]
    · simp only [bg, hov, hfit]; rfl
  · obtain ⟨hp, rfl⟩ := fixed_over hfit hv
    refine neg_over ho (h.upd hc rfl rfl rfl rfl rfl rfl ?_ rfl) (hi.same rfl) ?_ ?_ hp ?_
    · simp only [bg, hn, ls30_put]
    · simp only [bg, hov, hfit]; rfl
    · exact byteOf_put _ _ _
    · rw [ofInt_neg]
      simp only [archOf, bg, hn, hd, gr_put, fr_put, sys_put, Arch.put, Arch.setCC, neg_eq]

theorem fits_abs_neg (x : W) : fits (-(x.toInt.natAbs : Int)) := by
  have := fits_toInt x
  unfold fits at *
  omega

theorem msb_toInt (x : W) : x.msb = decide (x.toInt < 0) := BitVec.msb_eq_toInt

theorem put_put (a : Arch) (r : BitVec 4) (v w : W) : (a.put r v).put r w = a.put r w := by
  simp only [Arch.put, Arch.mk.injEq, and_true, true_and]
  funext i
  by_cases h : i = r <;> simp [h]

/-- Word 280: load positive. -/
theorem lpr_tail {e : Env} {tk : Bool} {a a' : Arch} {r : BitVec 4} {s : S} (ho : EnvOk e)
    (h : AtEnd e tk a s) (hi : InStore e a) (hr : s.ROAR = 0x280) (hn : s.FN = 3#2)
    (hd : s.MD = r) (hv : fixed a r (s.L.toInt.natAbs : Int) = some a') :
    Ev e tk (Bd e tk a') s := by
  refine Ev.plain ho h.calm hr (by rw [w280]; decide) (fun t => x280 e _ _)
    (fun t => by unfold memPart; rfl) fun t ht hc => ?_
  obtain rfl := h.arch
  have hms := msb_toInt s.L
  by_cases hneg : s.L.toInt < 0
  · have habs : (s.L.toInt.natAbs : Int) = -s.L.toInt := by omega
    rw [habs] at hv
    have hmsb : s.L.msb = true := by rw [hms]; simpa using hneg
    refine neg_tail (r := r) ho (h.upd hc rfl rfl rfl rfl rfl rfl ?_ rfl) (hi.same rfl) ?_ hn hd ?_ ?_
    · simp only [bg, hn, ls30_put]
    · simp only [bg, hmsb]; rfl
    · exact byteOf_put _ _ _
    · simp only [bg]
      rw [← hv]
      unfold fixed
      simp only [archOf, hn, hd, gr_put, fr_put, sys_put, Arch.setCC, Arch.put]
      have : ∀ v : W, (fun i : BitVec 4 => if i = r then v else if i = r then s.L else s.LS (3#2 ++ i)) =
          fun i => if i = r then v else s.LS (3#2 ++ i) := by
        intro v; funext i
        by_cases h : i = r <;> simp [h]
      simp only [this]
      rfl
  · have habs : (s.L.toInt.natAbs : Int) = s.L.toInt := by omega
    have hmsb : s.L.msb = false := by rw [hms]; simpa using hneg
    rw [habs, fixed_fits (fits_toInt _), BitVec.ofInt_toInt] at hv
    obtain rfl := Option.some.inj hv
    refine end_a (n := 0x21c) ho (h.upd hc ?_ rfl rfl rfl rfl rfl ?_ rfl) (hi.same rfl) ?_
      (by rw [w21c, w144])
    · simp only [archOf, bg, hn, hd, gr_put, fr_put, sys_put, Arch.put, Arch.setCC, cc_sign]
    · simp only [bg, hn, ls30_put]
    · simp only [bg, hmsb]; rfl

/-- Word 284: load negative. -/
theorem lnr_tail {e : Env} {tk : Bool} {a a' : Arch} {r : BitVec 4} {s : S} (ho : EnvOk e)
    (h : AtEnd e tk a s) (hi : InStore e a) (hr : s.ROAR = 0x284) (hn : s.FN = 3#2)
    (hd : s.MD = r) (hv : fixed a r (-(s.L.toInt.natAbs : Int)) = some a') :
    Ev e tk (Bd e tk a') s := by
  refine Ev.plain ho h.calm hr (by rw [w284]; decide) (fun t => x284 e _ _)
    (fun t => by unfold memPart; rfl) fun t ht hc => ?_
  obtain rfl := h.arch
  have hms := msb_toInt s.L
  have hfit := fits_abs_neg s.L
  rw [fixed_fits hfit] at hv
  obtain rfl := Option.some.inj hv
  by_cases hneg : s.L.toInt < 0
  · have habs : -(s.L.toInt.natAbs : Int) = s.L.toInt := by omega
    have hmsb : s.L.msb = true := by rw [hms]; simpa using hneg
    rw [habs, BitVec.ofInt_toInt]
    refine end_a (n := 0x21a) ho (h.upd hc ?_ rfl rfl rfl rfl rfl ?_ rfl) (hi.same rfl) ?_
      (by rw [w21a, w144])
    · simp only [archOf, bg, hn, hd, gr_put, fr_put, sys_put, Arch.put, Arch.setCC, cc_sign]
    · simp only [bg, hn, ls30_put]
    · simp only [bg, hmsb]; rfl
  · have habs : -(s.L.toInt.natAbs : Int) = -s.L.toInt := by omega
    have hmsb : s.L.msb = false := by rw [hms]; simpa using hneg
    rw [habs] at hfit ⊢
    have hAE := h.upd (a' := archOf _) hc rfl rfl rfl rfl rfl rfl
      (by simp only [bg, hn, ls30_put]) rfl
    refine Ev.wait (n := 0x219) ho hc (by simp only [bg, hmsb]; rfl) (by rw [w219]; decide)
      (by rw [w219]; decide)
      (fun tu sa ex => x219 e _ _) fun tu sa ex hex hc1 => ?_
    refine end_b ho hAE (hi.same rfl) hex hc1.qt rfl ?_ rfl rfl ?_ rfl rfl rfl rfl rfl rfl rfl rfl rfl
    · rw [ofInt_neg, ← neg_toInt hfit]
      simp only [archOf, bg, hn, hd, gr_put, fr_put, sys_put, Arch.put, Arch.setCC, cc_sign, neg_eq]
      have : ∀ v : W, (fun i : BitVec 4 => if i = r then v else lsPut s.LS (3#2 ++ r) s.L (3#2 ++ i)) =
          fun i => if i = r then v else s.LS (3#2 ++ i) := by
        intro v; funext i
        by_cases h : i = r <;> simp [h, lsPut, gr_eq]
      simp only [this]
    · simp only [bg, hn, ls30_put]

/-- Word 288: load and test. -/
theorem ltr_tail {e : Env} {tk : Bool} {a : Arch} {r : BitVec 4} {s : S} (ho : EnvOk e)
    (h : AtEnd e tk a s) (hi : InStore e a) (hr : s.ROAR = 0x288) (hn : s.FN = 3#2)
    (hd : s.MD = r) :
    Ev e tk (Bd e tk ((a.put r s.L).setCC (ccSign s.L.toInt))) s := by
  refine Ev.wait ho h.calm hr (by rw [w288]; decide) (by rw [w288]; decide)
    (fun tu sa ex => x288 e _ _) fun tu sa ex hex hc => ?_
  obtain rfl := h.arch
  refine end_b ho h hi hex hc.qt rfl ?_ rfl rfl ?_ rfl rfl rfl rfl rfl rfl rfl rfl rfl
  · simp only [archOf, hn, hd, gr_put, fr_put, sys_put, Arch.put, Arch.setCC, cc_sign]
  · simp only [hn, ls30_put]

theorem bs15 : bsMask 15#4 = 0xffffffff#32 := rfl

theorem eq_of_sub {r l : W} (h : r - l = 0#32) : r = l := by
  have h1 := BitVec.sub_add_cancel r l
  rw [h] at h1
  rw [← h1]; simp

theorem cc_cmpl (l r : W) :
    (if ~~~(l &&& 0xffffffff#32) + r + 1#32 &&& 0xffffffff#32 = 0#32 then 0#2
      else if (carriesOf (~~~(l &&& 0xffffffff#32)) r
        (~~~(l &&& 0xffffffff#32) + r + 1#32)).msb = true then 2#2 else 1#2) =
      ccCmp r.toNat l.toNat := by
  have hall : ∀ x : W, x &&& 0xffffffff#32 = x := fun x => by
    have h : (0xffffffff#32 : W) = BitVec.allOnes 32 := rfl
    rw [h, BitVec.and_allOnes]
  rw [hall, hall, carry_sub, sub_eq]
  unfold ccCmp
  by_cases h : r = l
  · subst h; simp
  · have h1 : ¬ (r - l = 0#32) := fun h2 => h (eq_of_sub h2)
    have h2 : ¬ ((r.toNat : Int) = l.toNat) := fun h3 => h (BitVec.eq_of_toNat_eq (by omega))
    rw [if_neg h1, if_neg h2]
    by_cases h3 : l.toNat ≤ r.toNat
    · have : ¬ ((r.toNat : Int) < l.toNat) := by omega
      rw [if_neg this]; simp [h3]
    · have : ((r.toNat : Int) < l.toNat) := by omega
      rw [if_pos this]; simp [h3]

/-- Word 246: compare logical, register form. -/
theorem clr_tail {e : Env} {tk : Bool} {a : Arch} {s : S} (ho : EnvOk e)
    (h : AtEnd e tk a s) (hi : InStore e a) (hr : s.ROAR = 0x246) (hb : s.BS = 15#4) :
    Ev e tk (Bd e tk (a.setCC (ccCmp s.R.toNat s.L.toNat))) s := by
  refine Ev.wait ho h.calm hr (by rw [w246]; decide) (by rw [w246]; decide)
    (fun tu sa ex => x246 e _ _) fun tu sa ex hex hc => ?_
  obtain rfl := h.arch
  refine end_b ho h hi hex hc.qt rfl ?_ rfl rfl rfl rfl rfl rfl rfl rfl rfl rfl rfl rfl
  simp only [archOf, hb, bs15, Arch.setCC, cc_cmpl]

/-- Word 247: compare logical, storage form. -/
theorem cl_tail {e : Env} {tk : Bool} {a : Arch} {s : S} (ho : EnvOk e)
    (h : AtEnd e tk a s) (hi : InStore e a) (hr : s.ROAR = 0x247) (hb : s.BS = 15#4) :
    Ev e tk (Bd e tk (a.setCC (ccCmp s.R.toNat s.L.toNat))) s := by
  refine Ev.plain ho h.calm hr (by rw [w247]; decide) (fun t => x247 e _ _)
    (fun t => by unfold memPart; rfl) fun t ht hc => ?_
  obtain rfl := h.arch
  refine end_a (n := 0x197) ho (h.upd hc ?_ rfl rfl rfl rfl rfl rfl rfl) (hi.same rfl) rfl
      (by rw [w197, w144])
  simp only [archOf, bg, hb, bs15, Arch.setCC, cc_cmpl]

/-- Word 249: add logical. -/
theorem al_tail {e : Env} {tk : Bool} {a : Arch} {r : BitVec 4} {s : S} (ho : EnvOk e)
    (h : AtEnd e tk a s) (hi : InStore e a) (hr : s.ROAR = 0x249) (hn : s.FN = 3#2)
    (hd : s.MD = r) : Ev e tk (Bd e tk (addLogical a r s.R s.L)) s := by
  refine Ev.plain ho h.calm hr (by rw [w249]; decide) (fun t => x249 e _ _)
    (fun t => by unfold memPart; rfl) fun t ht hc => ?_
  obtain rfl := h.arch
  refine end_a (n := 0x197) ho (h.upd hc ?_ rfl rfl rfl rfl rfl ?_ rfl) (hi.same rfl) rfl
      (by rw [w197, w144])
  · simp only [archOf, bg, hn, hd, gr_put, fr_put, sys_put, addLogical, Arch.put, Arch.setCC, carry_add]
    rw [BitVec.add_comm s.L s.R]
    generalize decide (2 ^ 32 ≤ s.R.toNat + s.L.toNat) = c
    by_cases h2 : s.R + s.L = 0#32 <;> cases c <;> simp [h2]
  · simp only [bg, hn, ls30_put]

/-- Word 24a: subtract logical. -/
theorem sl_tail {e : Env} {tk : Bool} {a : Arch} {r : BitVec 4} {s : S} (ho : EnvOk e)
    (h : AtEnd e tk a s) (hi : InStore e a) (hr : s.ROAR = 0x24a) (hn : s.FN = 3#2)
    (hd : s.MD = r) : Ev e tk (Bd e tk (subLogical a r s.R s.L)) s := by
  refine Ev.plain ho h.calm hr (by rw [w24a]; decide) (fun t => x24a e _ _)
    (fun t => by unfold memPart; rfl) fun t ht hc => ?_
  obtain rfl := h.arch
  refine end_a (n := 0x197) ho (h.upd hc ?_ rfl rfl rfl rfl rfl ?_ rfl) (hi.same rfl) rfl
      (by rw [w197, w144])
  · simp only [archOf, bg, hn, hd, gr_put, fr_put, sys_put, subLogical, Arch.put, Arch.setCC, carry_sub,
      decide_eq_true_eq]
    rw [sub_eq]
    have hcc : ((if s.L.toNat ≤ s.R.toNat then 2#2 else 0#2) |||
        if s.R - s.L = 0#32 then 0#2 else 1#2) =
        if s.R = s.L then 2 else if s.R.toNat < s.L.toNat then 1 else 3 := by
      by_cases h1 : s.R = s.L
      · rw [h1]; simp
      · have h2 : ¬ (s.R - s.L = 0#32) := fun h2 => h1 (eq_of_sub h2)
        rw [if_neg h2, if_neg h1]
        by_cases h3 : s.L.toNat ≤ s.R.toNat
        · have : ¬ s.R.toNat < s.L.toNat := by omega
          rw [if_pos h3, if_neg this]; rfl
        · have : s.R.toNat < s.L.toNat := by omega
          rw [if_neg h3, if_pos this]; rfl
    rw [hcc]
  · simp only [bg, hn, ls30_put]

/-- One byte of a logical operation. -/
def logic (f : BitVec 3) (x y : W) : W :=
  if f = 1 then x ||| y else if f = 2 then x &&& y else x ^^^ y

theorem put_logic {f : BitVec 3} (hf : f = 1 ∨ f = 2 ∨ f = 3) (l m x : W) (b : BitVec 2)
    (hx : byteOf x b = byteOf m b) :
    putByte x b (mvfL f (byteOf l b) (byteOf x b) ||| mvfR f (byteOf l b) (byteOf x b)) =
      putByte x b (byteOf (logic f l m) b) := by
  rw [hx]
  congr 1
  have h2 : ∀ b : BitVec 2, b = 0 ∨ b = 1 ∨ b = 2 ∨ b = 3 := by decide
  rcases h2 b with h | h | h | h <;> subst h <;> rcases hf with h | h | h <;> subst h <;>
    (apply BitVec.eq_of_getLsbD_eq; intro i hi
     interval_cases i <;> simp [mvfL, mvfR, logic, byteOf, Bool.or_comm, Bool.and_comm, Bool.xor_comm])

theorem put_four (m v : W) :
    putByte (putByte (putByte (putByte m 2 (byteOf v 2)) 1 (byteOf v 1)) 0 (byteOf v 0)) 3
      (byteOf v 3) = v := by
  apply BitVec.eq_of_getLsbD_eq; intro i hi
  interval_cases i <;> simp [putByte, byteOf]

theorem byteOf_put_ne (x : W) (b c : BitVec 2) (v : B) (h : b ≠ c) :
    byteOf (putByte x b v) c = byteOf x c := by
  have h2 : ∀ b : BitVec 2, b = 0 ∨ b = 1 ∨ b = 2 ∨ b = 3 := by decide
  rcases h2 b with h3 | h3 | h3 | h3 <;> rcases h2 c with h4 | h4 | h4 | h4 <;> subst h3 <;>
    subst h4 <;> first
      | exact absurd rfl h
      | (apply BitVec.eq_of_getLsbD_eq; intro i hi
         interval_cases i <;> simp [byteOf, putByte])

end Verif.Cpu50
