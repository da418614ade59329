import Verif.Cpu50.Tails2

/-!
# Model 2050: last microinstructions, logical operations, compare and branches
-/

namespace Verif.Cpu50
open Verif.S360
attribute [local irreducible] ros

theorem logic_step {e : Env} {tk : Bool} {P : S → Prop} {a : Arch} {s : S} (ho : EnvOk e)
    (h : AtEnd e tk a s) (hr : s.ROAR = 0x238)
    (k : ∀ s', AtEnd e tk a s' → s'.ROAR = 568 ||| 2 * (s.MB == 3#2).toNat → s'.FN = s.FN →
      s'.MD = s.MD → s'.L = s.L → s'.mvf = s.mvf → s'.MB = s.MB - 1#2 →
      s'.M = putByte s.M s.MB (mvfL s.mvf (byteOf s.L s.MB) (byteOf s.M s.MB) |||
        mvfR s.mvf (byteOf s.L s.MB) (byteOf s.M s.MB)) → Ev e tk P s') : Ev e tk P s := by
  refine Ev.plain ho h.calm hr (by rw [w238]; decide) (fun t => x238 e _ _)
    (fun t => by unfold memPart; rfl) fun t ht hc => ?_
  obtain rfl := h.arch
  exact k _ (h.upd hc rfl rfl rfl rfl rfl rfl rfl rfl) rfl rfl rfl rfl rfl rfl rfl

/-- Word 238: the four bytes of a logical operation. -/
theorem logic_tail {e : Env} {tk : Bool} {a : Arch} {r : BitVec 4} {s : S} (ho : EnvOk e)
    (h : AtEnd e tk a s) (hi : InStore e a) (hr : s.ROAR = 0x238) (hn : s.FN = 3#2)
    (hd : s.MD = r) (hb : s.MB = 2#2) (hf : s.mvf = 1 ∨ s.mvf = 2 ∨ s.mvf = 3) :
    Ev e tk (Bd e tk ((a.put r (logic s.mvf s.L s.M)).setCC (ccZero (logic s.mvf s.L s.M)))) s := by
  refine logic_step ho h hr fun s1 h1 r1 n1 d1 l1 f1 b1 m1 => ?_
  rw [hb] at r1 b1 m1
  rw [put_logic hf _ s.M _ _ rfl] at m1
  refine logic_step ho h1 r1 fun s2 h2 r2 n2 d2 l2 f2 b2 m2 => ?_
  rw [show s1.MB = 1#2 from b1] at r2 b2 m2
  rw [f1, l1, m1, put_logic hf _ s.M _ _ (byteOf_put_ne _ _ _ _ (by decide))] at m2
  refine logic_step ho h2 r2 fun s3 h3 r3 n3 d3 l3 f3 b3 m3 => ?_
  rw [show s2.MB = 0#2 from b2] at r3 b3 m3
  rw [f2, l2, f1, l1, m2, put_logic hf _ s.M _ _ (by
    rw [byteOf_put_ne _ _ _ _ (by decide), byteOf_put_ne _ _ _ _ (by decide)])] at m3
  refine logic_step ho h3 r3 fun s4 h4 r4 n4 d4 l4 f4 b4 m4 => ?_
  rw [show s3.MB = 3#2 from b3] at r4 b4 m4
  rw [f3, l3, f2, l2, f1, l1, m3, put_logic hf _ s.M _ _ (by
    rw [byteOf_put_ne _ _ _ _ (by decide), byteOf_put_ne _ _ _ _ (by decide),
      byteOf_put_ne _ _ _ _ (by decide)])] at m4
  have hM : s4.M = logic s.mvf s.L s.M := m4.trans (put_four s.M _)
  have hN : s4.FN = 3#2 := by rw [n4, n3, n2, n1, hn]
  have hD : s4.MD = r := by rw [d4, d3, d2, d1, hd]
  rw [← hM]
  refine Ev.wait ho h4.calm (n := 0x23a) r4 (by rw [w23a]; decide) (by rw [w23a]; decide)
    (fun tu sa ex => x23a e _ _) fun tu sa ex hex hc => ?_
  obtain rfl := h4.arch
  refine end_b ho h4 hi hex hc.qt rfl ?_ rfl rfl ?_ rfl rfl rfl rfl rfl rfl rfl rfl rfl
  · simp only [archOf, hN, hD, gr_put, fr_put, sys_put, Arch.put, Arch.setCC, carry_zero, ccZero]
    by_cases h5 : s4.M = 0#32 <;> simp [h5]
  · simp only [hN, ls30_put]

theorem lowbyte (x : W) : (x &&& 4294967040#32 ||| 240#32).msb = x.msb := by
  rw [BitVec.msb_or, BitVec.msb_and]
  have h1 : (4294967040#32 : W).msb = true := by decide
  have h2 : (240#32 : W).msb = false := by decide
  rw [h1, h2]; simp

theorem sgn_msb (x : W) : (2147483648#32 + x).msb = !x.msb := by
  rw [bit31, bit31, BitVec.toNat_add]
  have h1 : (2147483648#32 : W).toNat = 2 ^ 31 := by decide
  have := x.isLt
  rw [h1]
  by_cases h : 2 ^ 31 ≤ x.toNat
  · have h2 : ¬ 2 ^ 31 ≤ (2 ^ 31 + x.toNat) % 2 ^ 32 := by omega
    rw [decide_eq_true h, decide_eq_false h2]; rfl
  · have h2 : 2 ^ 31 ≤ (2 ^ 31 + x.toNat) % 2 ^ 32 := by omega
    rw [decide_eq_false h, decide_eq_true h2]; rfl

theorem sgn_ne (x : W) : ¬ (2147483648#32 + (x &&& 4294967040#32 ||| 240#32) = 0#32) := by
  intro h
  have h1 := congrArg (fun y => y.getLsbD 4) h
  have h2 := congrArg (fun y : W => y - 2147483648#32) h
  simp only [BitVec.add_comm 2147483648#32, BitVec.add_sub_cancel] at h2
  have h3 := congrArg (fun y => y.getLsbD 4) h2
  simp at h3

/-- Condition code of a comparison when the difference does not fit. -/
theorem cc_over {l r : W} (h : ¬ fits (r.toInt - l.toInt)) :
    (if 2147483648#32 + (~~~l + r + 1#32 &&& 4294967040#32 ||| 240#32) = 0#32 then 0#2
      else if (2147483648#32 + (~~~l + r + 1#32 &&& 4294967040#32 ||| 240#32)).msb = true
        then 1#2 else 2#2) = ccCmp r.toInt l.toInt := by
  rw [if_neg (sgn_ne _), sgn_msb, lowbyte, sub_eq, bit31]
  have h1 := toInt_cases l
  have h2 := toInt_cases r
  have h3 := l.isLt
  have h4 := r.isLt
  have h5 : (r - l).toNat = (2 ^ 32 - l.toNat + r.toNat) % 2 ^ 32 := BitVec.toNat_sub r l
  unfold fits at h
  unfold ccCmp
  have h6 : ¬ r.toInt = l.toInt := by omega
  rw [if_neg h6, h5]
  by_cases h7 : r.toInt < l.toInt
  · have h8 : ¬ 2 ^ 31 ≤ (2 ^ 32 - l.toNat + r.toNat) % 2 ^ 32 := by omega
    rw [if_pos h7, decide_eq_false h8]; rfl
  · have h8 : 2 ^ 31 ≤ (2 ^ 32 - l.toNat + r.toNat) % 2 ^ 32 := by omega
    rw [if_neg h7, decide_eq_true h8]; rfl

theorem ccCmp_sub (x y : Int) : ccSign (x - y) = ccCmp x y := by
  unfold ccSign ccCmp
  have h1 : (x - y = 0) = (x = y) := by apply propext; omega
  have h2 : (x - y < 0) = (x < y) := by apply propext; omega
  simp only [h1, h2]

/-- After word 245 or 222. -/
theorem cmp_end {e : Env} {tk : Bool} {a : Arch} {l r : W} {s : S} (ho : EnvOk e)
    (h : AtEnd e tk (a.setCC (ccSign (r - l).toInt)) s) (hi : InStore e a)
    (hm : s.M = (~~~l + r + 1#32 &&& 4294967040#32 ||| 240#32))
    (hr : s.ROAR = 646 + (!decide (fits (r.toInt - l.toInt))).toNat) :
    Ev e tk (Bd e tk (a.setCC (ccCmp r.toInt l.toInt))) s := by
  by_cases hf : fits (r.toInt - l.toInt)
  · rw [sub_toInt hf, ccCmp_sub] at h
    refine end_a (n := 0x286) ho h (hi.same rfl) ?_ (by decide +kernel)
    rw [hr, decide_eq_true hf]; rfl
  · have hroar : s.ROAR = 0x287 := by rw [hr, decide_eq_false hf]; rfl
    have hcc := cc_over hf
    rw [← hm] at hcc
    refine Ev.wait ho h.calm hroar (by rw [w287]; decide) (by rw [w287]; decide)
      (fun tu sa ex => x287 e _ _) fun tu sa ex hex hc => .now ?_
    refine end_c ho h (hi.same rfl) hex hc.qt rfl ?_ rfl rfl rfl rfl rfl rfl rfl rfl rfl rfl
    have hA : archOf s = _ := h.arch
    have hB : ∀ c : BitVec 2, (archOf s).setCC c = a.setCC c := by intro c; rw [hA]; rfl
    rw [← hcc, ← hB]; rfl

end Verif.Cpu50
