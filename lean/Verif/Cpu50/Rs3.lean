import Verif.Cpu50.Rs2

/-!
# Model 2050: logical shifts of two registers
-/

namespace Verif.Cpu50
open Verif.S360
attribute [local irreducible] ros

theorem byteR (x : W) : byteOf x 3#2 = x.setWidth 8 := by
  simp [byteOf]

theorem g_setD (g : B) (m : W) :
    (g &&& 240#8 ||| byteOf m 3#2 &&& 15#8 &&& 15#8).toNat % 16 = (m.setWidth 8 &&& 15#8).toNat := by
  rw [g_set, byteR, BitVec.and_assoc]; rfl

theorem lo_eq {a : Arch} {s : S} {r : BitVec 4} {p q : W} (h : archOf s = P2 a r p q)
    (he : r &&& 1#4 = 0#4) : s.LS (3#2 ++ (r ||| 1#4)) = q := by
  have h1 : (archOf s).gr (r ||| 1#4) = (P2 a r p q).gr (r ||| 1#4) := by rw [h]
  have h2 : (P2 a r p q).gr (r ||| 1#4) = q := by
    simp only [P2]
    rw [if_neg (even_or r he).2]; simp
  exact h1.trans h2

theorem put_ne30 (ls : BitVec 6 → W) {fn : BitVec 2} (h : fn = 3#2) (r : BitVec 4) (v : W) :
    lsPut ls (fn ++ r) v 30 = ls 30 := by rw [h, ls30_put]

/-! ### SRDL -/

/-- Both registers by four, at word `8b3`, until the low digit of `G` is used up. -/
theorem srdl_four {e : Env} {tk : Bool} {a : Arch} {r : BitVec 4} (ho : EnvOk e) (hi : InStore e a)
    (he : r &&& 1#4 = 0#4) (n : Nat) : ∀ {s : S} {p q z : W}, AtEnd e tk (P2 a r p z) s →
      s.L = p → s.R = q → s.FN = 3#2 → s.MD = r → s.G.toNat % 16 = n →
      s.ROAR = 0x8b3 → Ev e tk (Bd e tk (P2v a r ((p ++ q : BitVec 64) >>> (4 * n)))) s := by
  induction n with
  | zero =>
    intro s p q z h l hR fn md hg hr
    rw [Nat.mul_zero, BitVec.ushiftRight_zero, P2v_append]
    refine Ev.plain (n := 0x8b3) ho h.calm hr (by rw [w8b3]; decide) (fun t => x8b3 e _ _)
      (fun t => by unfold memPart; rfl) fun t ht hc => ?_
    refine Ev.bind (P := fun s' => AtEnd e tk (P2 a r p q) s' ∧ s'.ROAR = 0x891) (.now ?_)
      fun s2 h2 => end_a (n := 0x891) ho h2.1 hi.p2 h2.2 (by rw [w891, w144])
    refine ⟨h.updP hc (arch_lo he h.arch (by
      simp only [bg, fn, md, l, hR]) rfl rfl rfl rfl rfl rfl rfl rfl) (lo_lt _) rfl rfl
      (put_ne30 _ fn _ _) rfl, ?_⟩
    show 2192 ||| 2 * (!s.G &&& 15#8 == 0#8).toNat + (s.G &&& 15#8 == 0#8).toNat = _
    rw [g_zero, hg, decide_eq_true rfl]; rfl
  | succ n ih =>
    intro s p q z h l hR fn md hg hr
    refine Ev.plain (n := 0x8b3) ho h.calm hr (by rw [w8b3]; decide) (fun t => x8b3 e _ _)
      (fun t => by unfold memPart; rfl) fun t ht hc => ?_
    refine Ev.bind (P := fun s' => AtEnd e tk (P2 a r p q) s' ∧ s'.L = p >>> 4 ∧ s'.R = q ∧
      s'.F = loDig p ∧ s'.FN = 3#2 ∧ s'.MD = r ∧ s'.G.toNat % 16 = n ∧ s'.ROAR = 0x892) (.now ?_) ?_
    · refine ⟨h.updP hc (arch_lo he h.arch (by
        simp only [bg, fn, md, l, hR]) rfl rfl rfl rfl rfl rfl rfl rfl) (lo_lt _) rfl rfl
        (put_ne30 _ fn _ _) rfl, ?_, ?_, ?_, fn, md, g_and hg, ?_⟩
      · simp only [bg, l]
      · simp only [bg, hR]
      · simp only [bg, l, hR]
      · show 2192 ||| 2 * (!s.G &&& 15#8 == 0#8).toNat + (s.G &&& 15#8 == 0#8).toNat = _
        rw [g_zero, hg, decide_eq_false (Nat.succ_ne_zero n)]; rfl
    · clear h l hR fn md hg hr hc
      rintro s2 ⟨h, l, hR, hf, fn, md, hg, hr⟩
      refine Ev.plain (n := 0x892) ho h.calm hr (by rw [w892]; decide) (fun t => x892 e _ _)
        (fun t => by unfold memPart; rfl) fun t ht hc => ?_
      refine Ev.bind (P := fun s' => AtEnd e tk (P2 a r (p >>> 4) q) s' ∧ s'.L = p >>> 4 ∧
        s'.R = (q >>> 4 ||| (BitVec.setWidth 32 (loDig p) &&& 15#32) <<< 28) ∧ s'.FN = 3#2 ∧ s'.MD = r ∧ s'.G.toNat % 16 = n ∧ s'.ROAR = 0x8b3) (.now ?_) ?_
      · refine ⟨h.updP hc (arch_hi h.arch (by
          simp only [bg, fn, md, l, hR]) rfl rfl rfl rfl rfl rfl rfl rfl) (lo_lt _) rfl rfl
          (put_ne30 _ fn _ _) rfl, ?_, ?_, fn, md, hg, rfl⟩
        · simp only [bg, l, hf]
        · simp only [bg, hR, hf]
      · rintro s3 ⟨h3, l3, r3, fn3, md3, hg3, hr3⟩
        have h4 := ih h3 l3 r3 fn3 md3 hg3 hr3
        rw [← srd4, ← BitVec.shiftRight_add, show 4 + 4 * n = 4 * (n + 1) by omega] at h4
        exact h4

/-- By one, at word `894`; one of the registers has been shifted. -/
theorem srdl_one {e : Env} {tk : Bool} {a : Arch} {r : BitVec 4} (ho : EnvOk e) (hi : InStore e a)
    (he : r &&& 1#4 = 0#4) (g n : Nat) : ∀ {s : S} {p q z : W}, AtEnd e tk (P2 a r (p >>> 1) z) s →
      s.L = p >>> 1 → s.R = q → s.Q = (p &&& 1#32 != 0#32) → s.FN = 3#2 → s.MD = r → s.G.toNat % 16 = g →
      s.LB.toNat = n → s.ROAR = 0x894 →
      Ev e tk (Bd e tk (P2v a r ((p ++ q : BitVec 64) >>> (n + 1 + 4 * g)))) s := by
  induction n with
  | zero =>
    intro s p q z h l hR hq fn md hg hl hr
    refine Ev.plain (n := 0x894) ho h.calm hr (by rw [w894]; decide) (fun t => x894 e _ _)
      (fun t => by unfold memPart; rfl) fun t ht hc => ?_
    refine Ev.bind (P := fun s' => AtEnd e tk (P2 a r (p >>> 1) z) s' ∧ s'.L = p >>> 1 ∧
      s'.R = (q >>> 1 ||| if (p &&& 1#32 != 0#32) = true then 2147483648#32 else 0#32) ∧ s'.FN = 3#2 ∧ s'.MD = r ∧ s'.G.toNat % 16 = g ∧ s'.ROAR = 0x8b3) (.now ?_) ?_
    · refine ⟨h.updP hc h.arch h.f rfl rfl rfl rfl, ?_, ?_, fn, md, hg, ?_⟩
      · simp only [bg, l, hq]
      · simp only [bg, hR, hq]
      · show 2224 ||| 2 + (s.LB == 0#2).toNat = _
        rw [beq0, hl, decide_eq_true rfl]; rfl
    · rintro s3 ⟨h3, l3, r3, fn3, md3, hg3, hr3⟩
      have h4 := srdl_four ho hi he g h3 l3 r3 fn3 md3 hg3 hr3
      rw [← srd1, ← BitVec.shiftRight_add] at h4
      exact h4
  | succ n ih =>
    intro s p q z h l hR hq fn md hg hl hr
    refine Ev.plain (n := 0x894) ho h.calm hr (by rw [w894]; decide) (fun t => x894 e _ _)
      (fun t => by unfold memPart; rfl) fun t ht hc => ?_
    refine Ev.bind (P := fun s' => AtEnd e tk (P2 a r (p >>> 1) z) s' ∧ s'.L = p >>> 1 ∧
      s'.R = (q >>> 1 ||| if (p &&& 1#32 != 0#32) = true then 2147483648#32 else 0#32) ∧ s'.FN = 3#2 ∧ s'.MD = r ∧ s'.G.toNat % 16 = g ∧ s'.LB.toNat = n ∧
      s'.ROAR = 0x8b2) (.now ?_) ?_
    · refine ⟨h.updP hc h.arch h.f rfl rfl rfl rfl, ?_, ?_, fn, md, hg, low2_pred _ _ hl, ?_⟩
      · simp only [bg, l, hq]
      · simp only [bg, hR, hq]
      · show 2224 ||| 2 + (s.LB == 0#2).toNat = _
        rw [beq0, hl, decide_eq_false (Nat.succ_ne_zero n)]; rfl
    · clear h l hR fn md hg hr hc hq hl
      rintro s2 ⟨h, l, hR, fn, md, hg, hl, hr⟩
      have hd := srd1 p q
      rw [show n + 1 + 1 + 4 * g = 1 + (n + 1 + 4 * g) by omega, BitVec.shiftRight_add, hd]
      generalize p >>> 1 = p1 at *
      generalize (q >>> 1 ||| if (p &&& 1#32 != 0#32) = true then 2147483648#32 else 0#32) = q1 at *
      refine Ev.plain (n := 0x8b2) ho h.calm hr (by rw [w8b2]; decide) (fun t => x8b2 e _ _)
        (fun t => by unfold memPart; rfl) fun t ht hc => ?_
      refine Ev.bind (P := fun s' => AtEnd e tk (P2 a r (p1 >>> 1) z) s' ∧ s'.L = p1 >>> 1 ∧
        s'.R = q1 ∧ s'.Q = (p1 &&& 1#32 != 0#32) ∧ s'.FN = 3#2 ∧ s'.MD = r ∧ s'.G.toNat % 16 = g ∧ s'.LB.toNat = n ∧
        s'.ROAR = 0x894) (.now ?_) ?_
      · refine ⟨h.updP hc (arch_hi h.arch (by
          simp only [bg, fn, md, l, hR]) rfl rfl rfl rfl rfl rfl rfl rfl) h.f rfl rfl
          (put_ne30 _ fn _ _) rfl, ?_, ?_, ?_, fn, md, hg, hl, rfl⟩
        · simp only [bg, l]
        · simp only [bg, hR]
        · simp only [bg, l, hR]
      · rintro s3 ⟨h3, l3, r3, q3, fn3, md3, hg3, hl3, hr3⟩
        exact ih h3 l3 r3 q3 fn3 md3 hg3 hl3 hr3

/-- SRDL. -/
theorem srdl_exec {e : Env} {tk : Bool} {a : Arch} {i : BitVec 16} {x : W} {s : S} (ho : EnvOk e)
    (h : Op8 e tk a i x s) (hop : (opOf i).toNat = 0x8c) (hi : InStore e a)
    (he : dig1 i &&& 1#4 = 0#4) :
    Ev e tk (Bd e tk (a.putPair (dig1 i) (a.pair (dig1 i) >>> (x.toNat % 64)))) s := by
  have hro := h.roar
  rw [hop] at hro
  have hx := amount _ _ h.r
  rw [← P2_put he, Arch.pair, ← (even_or _ he).1]
  have hP := P2_self (a := a) (dig1 i)
  refine Ev.plain (n := 0x732) ho h.ae.calm hro (by rw [w732]; decide) (fun t => x732 e _ _)
    (fun t => by unfold memPart; rfl) fun t ht hc => ?_
  refine Ev.bind (P := fun s' => AtEnd e tk (P2 a (dig1 i) (a.gr (dig1 i)) (a.gr (dig1 i ||| 1#4))) s' ∧
    s'.FN = 3#2 ∧ s'.MD = dig1 i ∧ s'.MB = 3#2 ∧
    s'.L = a.gr (dig1 i) ∧ s'.M = s.R >>> 1 ∧ s'.LB = s.R.setWidth 2 ∧ s'.ROAR = 0x88f) (.now ?_) ?_
  · refine ⟨?_, h.fn, h.md, rfl, h.l, rfl, rfl, ?_⟩
    · rw [hP]
      exact h.ae.upd hc h.ae.arch rfl rfl rfl rfl rfl rfl rfl
    · show 2188 ||| 2 * (s.MD &&& 1#4 == 0#4).toNat + (s.MD &&& 1#4 == 0#4).toNat = _
      rw [h.md, he]; rfl
  generalize a.gr (dig1 i ||| 1#4) = q at *
  generalize a.gr (dig1 i) = p at *
  generalize s.R = m at *
  generalize dig1 i = rr at *
  clear h hro hc hP
  rintro s2 ⟨h, fn, md, mb, l, r, lb, hr⟩
  refine Ev.plain (n := 0x88f) ho h.calm hr (by rw [w88f]; decide) (fun t => x88f e _ _)
    (fun t => by unfold memPart; rfl) fun t ht hc => ?_
  refine Ev.bind (P := fun s' => AtEnd e tk (P2 a rr p q) s' ∧ s'.FN = 3#2 ∧ s'.MD = rr ∧ s'.MB = 3#2 ∧
    s'.L = p ∧ s'.R = q ∧ s'.M = m >>> 1 >>> 1 ∧ s'.LB = m.setWidth 2 - 1#2 ∧
    s'.ROAR = if (m.setWidth 2).toNat = 0 then 0x8b1 else 0x8b0) (.now ?_) ?_
  · refine ⟨h.updP hc h.arch h.f rfl rfl rfl rfl, fn, md, mb, l, ?_, ?_, ?_, ?_⟩
    · show s2.LS (s2.FN ++ (s2.MD ||| 1#4)) = _
      rw [fn, md, lo_eq h.arch he]
    · simp only [bg, r]
    · simp only [bg, lb]
    · show 2224 ||| (s2.LB == 0#2).toNat = _
      rw [lb, beq0]
      by_cases h0 : (m.setWidth 2).toNat = 0
      · rw [if_pos h0, decide_eq_true h0]; rfl
      · rw [if_neg h0, decide_eq_false h0]; rfl
  clear h fn md mb l r lb hr hc
  rintro s3 ⟨h, fn, md, mb, l, hR, hM, lb, hr⟩
  have hg : (s3.G &&& 240#8 ||| byteOf s3.M s3.MB &&& 15#8 &&& 15#8).toNat % 16 =
      ((m >>> 1 >>> 1).setWidth 8 &&& 15#8).toNat := by rw [mb, g_setD, hM]
  by_cases h0 : (m.setWidth 2).toNat = 0
  · rw [if_pos h0] at hr
    refine Ev.plain (n := 0x8b1) ho h.calm hr (by rw [w8b1]; decide) (fun t => x8b1 e _ _)
      (fun t => by unfold memPart; rfl) fun t ht hc => ?_
    refine Ev.bind (P := fun s' => AtEnd e tk (P2 a rr p q) s' ∧ s'.L = p ∧ s'.R = q ∧ s'.FN = 3#2 ∧
      s'.MD = rr ∧ s'.G.toNat % 16 = ((m >>> 1 >>> 1).setWidth 8 &&& 15#8).toNat ∧
      s'.ROAR = 0x8b3) (.now ?_) ?_
    · exact ⟨h.updP hc h.arch h.f rfl rfl rfl rfl, l, hR, fn, md, hg, rfl⟩
    · rintro s4 ⟨h4, l4, r4, fn4, md4, hg4, hr4⟩
      have h5 := srdl_four ho hi he _ h4 l4 r4 fn4 md4 hg4 hr4
      rw [show 4 * ((m >>> 1 >>> 1).setWidth 8 &&& 15#8).toNat = x.toNat % 64 by omega] at h5
      exact h5
  · rw [if_neg h0] at hr
    obtain ⟨n, hn⟩ : ∃ n, (m.setWidth 2).toNat = n + 1 := ⟨_, (Nat.succ_pred h0).symm⟩
    refine Ev.plain (n := 0x8b0) ho h.calm hr (by rw [w8b0]; decide) (fun t => x8b0 e _ _)
      (fun t => by unfold memPart; rfl) fun t ht hc => ?_
    refine Ev.bind (P := fun s' => AtEnd e tk (P2 a rr (p >>> 1) q) s' ∧ s'.L = p >>> 1 ∧
        s'.R = q ∧ s'.Q = (p &&& 1#32 != 0#32) ∧ s'.FN = 3#2 ∧ s'.MD = rr ∧
        s'.G.toNat % 16 = ((m >>> 1 >>> 1).setWidth 8 &&& 15#8).toNat ∧ s'.LB.toNat = n ∧
        s'.ROAR = 0x894) (.now ?_) ?_
    · refine ⟨h.updP hc (arch_hi h.arch (by
          simp only [bg, fn, md, l, hR]) rfl rfl rfl rfl rfl rfl rfl rfl) h.f rfl rfl
          (put_ne30 _ fn _ _) rfl, ?_, ?_, ?_, fn, md, hg, ?_, rfl⟩
      · simp only [bg, l]
      · simp only [bg, hR]
      · simp only [bg, l, hR]
      · show s3.LB.toNat = n
        rw [lb]; exact low2_pred _ _ hn
    · rintro s4 ⟨h4, l4, r4, q4, fn4, md4, hg4, hl4, hr4⟩
      have h5 := srdl_one ho hi he _ n h4 l4 r4 q4 fn4 md4 hg4 hl4 hr4
      rw [show n + 1 + 4 * ((m >>> 1 >>> 1).setWidth 8 &&& 15#8).toNat = x.toNat % 64 by omega] at h5
      exact h5

/-! ### SLDL -/

/-- Both registers by four, at word `8b7`, until the low digit of `G` is used up. -/
theorem sldl_four {e : Env} {tk : Bool} {a : Arch} {r : BitVec 4} (ho : EnvOk e) (hi : InStore e a)
    (he : r &&& 1#4 = 0#4) (n : Nat) : ∀ {s : S} {p q z : W}, AtEnd e tk (P2 a r z q) s →
      s.L = p → s.R = q → s.FN = 3#2 → s.MD = r → s.G.toNat % 16 = n →
      s.ROAR = 0x8b7 → Ev e tk (Bd e tk (P2v a r ((p ++ q : BitVec 64) <<< (4 * n)))) s := by
  induction n with
  | zero =>
    intro s p q z h l hR fn md hg hr
    rw [Nat.mul_zero, BitVec.shiftLeft_zero, P2v_append]
    refine Ev.plain (n := 0x8b7) ho h.calm hr (by rw [w8b7]; decide) (fun t => x8b7 e _ _)
      (fun t => by unfold memPart; rfl) fun t ht hc => ?_
    refine Ev.bind (P := fun s' => AtEnd e tk (P2 a r p q) s' ∧ s'.ROAR = 0x891) (.now ?_)
      fun s2 h2 => end_a (n := 0x891) ho h2.1 hi.p2 h2.2 (by rw [w891, w144])
    refine ⟨h.updP hc (arch_hi h.arch (by
      simp only [bg, fn, md, l, hR]) rfl rfl rfl rfl rfl rfl rfl rfl) (hi_lt _) rfl rfl
      (put_ne30 _ fn _ _) rfl, ?_⟩
    show 2192 ||| (s.G &&& 15#8 == 0#8).toNat = _
    rw [g_zero, hg, decide_eq_true rfl]; rfl
  | succ n ih =>
    intro s p q z h l hR fn md hg hr
    refine Ev.plain (n := 0x8b7) ho h.calm hr (by rw [w8b7]; decide) (fun t => x8b7 e _ _)
      (fun t => by unfold memPart; rfl) fun t ht hc => ?_
    refine Ev.bind (P := fun s' => AtEnd e tk (P2 a r p q) s' ∧ s'.L = p ∧ s'.R = q <<< 4 ∧
      s'.F = hiDig q ∧ s'.FN = 3#2 ∧ s'.MD = r ∧ s'.G.toNat % 16 = n ∧ s'.ROAR = 0x890) (.now ?_) ?_
    · refine ⟨h.updP hc (arch_hi h.arch (by
        simp only [bg, fn, md, l, hR]) rfl rfl rfl rfl rfl rfl rfl rfl) (hi_lt _) rfl rfl
        (put_ne30 _ fn _ _) rfl, ?_, ?_, ?_, fn, md, g_and hg, ?_⟩
      · simp only [bg, l]
      · simp only [bg, hR]
      · simp only [bg, l, hR]
      · show 2192 ||| (s.G &&& 15#8 == 0#8).toNat = _
        rw [g_zero, hg, decide_eq_false (Nat.succ_ne_zero n)]; rfl
    · clear h l hR fn md hg hr hc
      rintro s2 ⟨h, l, hR, hf, fn, md, hg, hr⟩
      refine Ev.plain (n := 0x890) ho h.calm hr (by rw [w890]; decide) (fun t => x890 e _ _)
        (fun t => by unfold memPart; rfl) fun t ht hc => ?_
      refine Ev.bind (P := fun s' => AtEnd e tk (P2 a r p (q <<< 4)) s' ∧ s'.L = (p <<< 4 ||| BitVec.setWidth 32 (hiDig q) &&& 15#32) ∧
        s'.R = q <<< 4 ∧ s'.FN = 3#2 ∧ s'.MD = r ∧ s'.G.toNat % 16 = n ∧ s'.ROAR = 0x8b7) (.now ?_) ?_
      · refine ⟨h.updP hc (arch_lo he h.arch (by
          simp only [bg, fn, md, l, hR]) rfl rfl rfl rfl rfl rfl rfl rfl) (hi_lt _) rfl rfl
          (put_ne30 _ fn _ _) rfl, ?_, ?_, fn, md, hg, rfl⟩
        · simp only [bg, l, hf]
        · simp only [bg, hR, hf]
      · rintro s3 ⟨h3, l3, r3, fn3, md3, hg3, hr3⟩
        have h4 := ih h3 l3 r3 fn3 md3 hg3 hr3
        rw [← sld4, ← BitVec.shiftLeft_add, show 4 + 4 * n = 4 * (n + 1) by omega] at h4
        exact h4

/-- By one, at word `893`; one of the registers has been shifted. -/
theorem sldl_one {e : Env} {tk : Bool} {a : Arch} {r : BitVec 4} (ho : EnvOk e) (hi : InStore e a)
    (he : r &&& 1#4 = 0#4) (g n : Nat) : ∀ {s : S} {p q z : W}, AtEnd e tk (P2 a r z (q <<< 1)) s →
      s.L = p → s.R = q <<< 1 → s.Q = q.msb → s.FN = 3#2 → s.MD = r → s.G.toNat % 16 = g →
      s.LB.toNat = n → s.ROAR = 0x893 →
      Ev e tk (Bd e tk (P2v a r ((p ++ q : BitVec 64) <<< (n + 1 + 4 * g)))) s := by
  induction n with
  | zero =>
    intro s p q z h l hR hq fn md hg hl hr
    refine Ev.plain (n := 0x893) ho h.calm hr (by rw [w893]; decide) (fun t => x893 e _ _)
      (fun t => by unfold memPart; rfl) fun t ht hc => ?_
    refine Ev.bind (P := fun s' => AtEnd e tk (P2 a r z (q <<< 1)) s' ∧ s'.L = (p <<< 1 ||| bitW q.msb) ∧
      s'.R = q <<< 1 ∧ s'.FN = 3#2 ∧ s'.MD = r ∧ s'.G.toNat % 16 = g ∧ s'.ROAR = 0x8b7) (.now ?_) ?_
    · refine ⟨h.updP hc h.arch (and15_lt _) rfl rfl rfl rfl, ?_, ?_, fn, md, hg, ?_⟩
      · simp only [bg, l, hq]
      · simp only [bg, hR, hq]
      · show 2228 ||| 2 + (s.LB == 0#2).toNat = _
        rw [beq0, hl, decide_eq_true rfl]; rfl
    · rintro s3 ⟨h3, l3, r3, fn3, md3, hg3, hr3⟩
      have h4 := sldl_four ho hi he g h3 l3 r3 fn3 md3 hg3 hr3
      rw [← sld1, ← BitVec.shiftLeft_add] at h4
      exact h4
  | succ n ih =>
    intro s p q z h l hR hq fn md hg hl hr
    refine Ev.plain (n := 0x893) ho h.calm hr (by rw [w893]; decide) (fun t => x893 e _ _)
      (fun t => by unfold memPart; rfl) fun t ht hc => ?_
    refine Ev.bind (P := fun s' => AtEnd e tk (P2 a r z (q <<< 1)) s' ∧ s'.L = (p <<< 1 ||| bitW q.msb) ∧
      s'.R = q <<< 1 ∧ s'.FN = 3#2 ∧ s'.MD = r ∧ s'.G.toNat % 16 = g ∧ s'.LB.toNat = n ∧
      s'.ROAR = 0x8b6) (.now ?_) ?_
    · refine ⟨h.updP hc h.arch (and15_lt _) rfl rfl rfl rfl, ?_, ?_, fn, md, hg, low2_pred _ _ hl, ?_⟩
      · simp only [bg, l, hq]
      · simp only [bg, hR, hq]
      · show 2228 ||| 2 + (s.LB == 0#2).toNat = _
        rw [beq0, hl, decide_eq_false (Nat.succ_ne_zero n)]; rfl
    · clear h l hR fn md hg hr hc hq hl
      rintro s2 ⟨h, l, hR, fn, md, hg, hl, hr⟩
      have hd := sld1 p q
      rw [show n + 1 + 1 + 4 * g = 1 + (n + 1 + 4 * g) by omega, BitVec.shiftLeft_add, hd]
      generalize (p <<< 1 ||| bitW q.msb) = p1 at *
      generalize q <<< 1 = q1 at *
      refine Ev.plain (n := 0x8b6) ho h.calm hr (by rw [w8b6]; decide) (fun t => x8b6 e _ _)
        (fun t => by unfold memPart; rfl) fun t ht hc => ?_
      refine Ev.bind (P := fun s' => AtEnd e tk (P2 a r z (q1 <<< 1)) s' ∧ s'.L = p1 ∧
        s'.R = q1 <<< 1 ∧ s'.Q = q1.msb ∧ s'.FN = 3#2 ∧ s'.MD = r ∧ s'.G.toNat % 16 = g ∧ s'.LB.toNat = n ∧
        s'.ROAR = 0x893) (.now ?_) ?_
      · refine ⟨h.updP hc (arch_lo he h.arch (by
          simp only [bg, fn, md, l, hR]) rfl rfl rfl rfl rfl rfl rfl rfl) h.f rfl rfl
          (put_ne30 _ fn _ _) rfl, ?_, ?_, ?_, fn, md, hg, hl, rfl⟩
        · simp only [bg, l]
        · simp only [bg, hR]
        · simp only [bg, l, hR]
      · rintro s3 ⟨h3, l3, r3, q3, fn3, md3, hg3, hl3, hr3⟩
        exact ih h3 l3 r3 q3 fn3 md3 hg3 hl3 hr3

/-- SLDL. -/
theorem sldl_exec {e : Env} {tk : Bool} {a : Arch} {i : BitVec 16} {x : W} {s : S} (ho : EnvOk e)
    (h : Op8 e tk a i x s) (hop : (opOf i).toNat = 0x8d) (hi : InStore e a)
    (he : dig1 i &&& 1#4 = 0#4) :
    Ev e tk (Bd e tk (a.putPair (dig1 i) (a.pair (dig1 i) <<< (x.toNat % 64)))) s := by
  have hro := h.roar
  rw [hop] at hro
  have hx := amount _ _ h.r
  rw [← P2_put he, Arch.pair, ← (even_or _ he).1]
  have hP := P2_self (a := a) (dig1 i)
  refine Ev.plain (n := 0x736) ho h.ae.calm hro (by rw [w736]; decide) (fun t => x736 e _ _)
    (fun t => by unfold memPart; rfl) fun t ht hc => ?_
  refine Ev.bind (P := fun s' => AtEnd e tk (P2 a (dig1 i) (a.gr (dig1 i)) (a.gr (dig1 i ||| 1#4))) s' ∧
    s'.FN = 3#2 ∧ s'.MD = dig1 i ∧ s'.MB = 3#2 ∧
    s'.L = a.gr (dig1 i) ∧ s'.M = s.R >>> 1 ∧ s'.LB = s.R.setWidth 2 ∧ s'.ROAR = 0x88e) (.now ?_) ?_
  · refine ⟨?_, h.fn, h.md, rfl, h.l, rfl, rfl, ?_⟩
    · rw [hP]
      exact h.ae.upd hc h.ae.arch rfl rfl rfl rfl rfl rfl rfl
    · show 2188 ||| 2 * (s.MD &&& 1#4 == 0#4).toNat = _
      rw [h.md, he]; rfl
  generalize a.gr (dig1 i ||| 1#4) = q at *
  generalize a.gr (dig1 i) = p at *
  generalize s.R = m at *
  generalize dig1 i = rr at *
  clear h hro hc hP
  rintro s2 ⟨h, fn, md, mb, l, r, lb, hr⟩
  refine Ev.plain (n := 0x88e) ho h.calm hr (by rw [w88e]; decide) (fun t => x88e e _ _)
    (fun t => by unfold memPart; rfl) fun t ht hc => ?_
  refine Ev.bind (P := fun s' => AtEnd e tk (P2 a rr p q) s' ∧ s'.FN = 3#2 ∧ s'.MD = rr ∧ s'.MB = 3#2 ∧
    s'.L = p ∧ s'.R = q ∧ s'.M = m >>> 1 >>> 1 ∧ s'.LB = m.setWidth 2 - 1#2 ∧
    s'.ROAR = if (m.setWidth 2).toNat = 0 then 0x8b5 else 0x8b4) (.now ?_) ?_
  · refine ⟨h.updP hc h.arch h.f rfl rfl rfl rfl, fn, md, mb, l, ?_, ?_, ?_, ?_⟩
    · show s2.LS (s2.FN ++ (s2.MD ||| 1#4)) = _
      rw [fn, md, lo_eq h.arch he]
    · simp only [bg, r]
    · simp only [bg, lb]
    · show 2228 ||| (s2.LB == 0#2).toNat = _
      rw [lb, beq0]
      by_cases h0 : (m.setWidth 2).toNat = 0
      · rw [if_pos h0, decide_eq_true h0]; rfl
      · rw [if_neg h0, decide_eq_false h0]; rfl
  clear h fn md mb l r lb hr hc
  rintro s3 ⟨h, fn, md, mb, l, hR, hM, lb, hr⟩
  have hg : (s3.G &&& 240#8 ||| byteOf s3.M s3.MB &&& 15#8 &&& 15#8).toNat % 16 =
      ((m >>> 1 >>> 1).setWidth 8 &&& 15#8).toNat := by rw [mb, g_setD, hM]
  by_cases h0 : (m.setWidth 2).toNat = 0
  · rw [if_pos h0] at hr
    refine Ev.plain (n := 0x8b5) ho h.calm hr (by rw [w8b5]; decide) (fun t => x8b5 e _ _)
      (fun t => by unfold memPart; rfl) fun t ht hc => ?_
    refine Ev.bind (P := fun s' => AtEnd e tk (P2 a rr p q) s' ∧ s'.L = p ∧ s'.R = q ∧ s'.FN = 3#2 ∧
      s'.MD = rr ∧ s'.G.toNat % 16 = ((m >>> 1 >>> 1).setWidth 8 &&& 15#8).toNat ∧
      s'.ROAR = 0x8b7) (.now ?_) ?_
    · exact ⟨h.updP hc h.arch h.f rfl rfl rfl rfl, l, hR, fn, md, hg, rfl⟩
    · rintro s4 ⟨h4, l4, r4, fn4, md4, hg4, hr4⟩
      have h5 := sldl_four ho hi he _ h4 l4 r4 fn4 md4 hg4 hr4
      rw [show 4 * ((m >>> 1 >>> 1).setWidth 8 &&& 15#8).toNat = x.toNat % 64 by omega] at h5
      exact h5
  · rw [if_neg h0] at hr
    obtain ⟨n, hn⟩ : ∃ n, (m.setWidth 2).toNat = n + 1 := ⟨_, (Nat.succ_pred h0).symm⟩
    refine Ev.plain (n := 0x8b4) ho h.calm hr (by rw [w8b4]; decide) (fun t => x8b4 e _ _)
      (fun t => by unfold memPart; rfl) fun t ht hc => ?_
    refine Ev.bind (P := fun s' => AtEnd e tk (P2 a rr p (q <<< 1)) s' ∧ s'.L = p ∧
        s'.R = q <<< 1 ∧ s'.Q = q.msb ∧ s'.FN = 3#2 ∧ s'.MD = rr ∧
        s'.G.toNat % 16 = ((m >>> 1 >>> 1).setWidth 8 &&& 15#8).toNat ∧ s'.LB.toNat = n ∧
        s'.ROAR = 0x893) (.now ?_) ?_
    · refine ⟨h.updP hc (arch_lo he h.arch (by
          simp only [bg, fn, md, l, hR]) rfl rfl rfl rfl rfl rfl rfl rfl) h.f rfl rfl
          (put_ne30 _ fn _ _) rfl, ?_, ?_, ?_, fn, md, hg, ?_, rfl⟩
      · simp only [bg, l]
      · simp only [bg, hR]
      · simp only [bg, l, hR]
      · show s3.LB.toNat = n
        rw [lb]; exact low2_pred _ _ hn
    · rintro s4 ⟨h4, l4, r4, q4, fn4, md4, hg4, hl4, hr4⟩
      have h5 := sldl_one ho hi he _ n h4 l4 r4 q4 fn4 md4 hg4 hl4 hr4
      rw [show n + 1 + 4 * ((m >>> 1 >>> 1).setWidth 8 &&& 15#8).toNat = x.toNat % 64 by omega] at h5
      exact h5

end Verif.Cpu50
