import Verif.Cpu50.Rs3

/-!
# Model 2050: arithmetic shift right of two registers
-/

namespace Verif.Cpu50
open Verif.S360
attribute [local irreducible] ros

theorem sad1 (p q : W) : (p ++ q : BitVec 64).sshiftRight 1 = p.sshiftRight 1 ++
    (q >>> 1 ||| if (p &&& 1#32 != 0#32) = true then 2147483648#32 else 0#32) := by
  have h := srd1 p q
  apply BitVec.eq_of_getLsbD_eq
  intro i hi
  have h1 := congrArg (fun v : BitVec 64 => v.getLsbD i) h
  have hm : (p ++ q : BitVec 64).msb = p.msb := by rw [BitVec.msb_append]; simp
  rw [BitVec.getLsbD_sshiftRight, hm, BitVec.getLsbD_append (x := p.sshiftRight 1), BitVec.getLsbD_sshiftRight]
  rw [BitVec.getLsbD_ushiftRight, BitVec.getLsbD_append (i := i), BitVec.getLsbD_ushiftRight] at h1
  by_cases h2 : i < 32
  · rw [if_pos h2, if_pos (by omega)]
    rw [if_pos h2] at h1
    rw [← h1, decide_eq_false (by omega : ¬ 64 ≤ i)]; rfl
  · rw [if_neg h2]
    rw [if_neg h2] at h1
    rw [decide_eq_false (by omega : ¬ 64 ≤ i), decide_eq_false (by omega : ¬ 32 ≤ i - 32)]
    by_cases h3 : 1 + i < 64
    · rw [if_pos h3, if_pos (by omega), h1]
    · rw [if_neg h3, if_neg (by omega)]

theorem sad4 (p q : W) : (p ++ q : BitVec 64).sshiftRight 4 = p.sshiftRight 4 ++
    (q >>> 4 ||| (BitVec.setWidth 32 (loDig p) &&& 15#32) <<< 28) := by
  have h := srd4 p q
  apply BitVec.eq_of_getLsbD_eq
  intro i hi
  have h1 := congrArg (fun v : BitVec 64 => v.getLsbD i) h
  have hm : (p ++ q : BitVec 64).msb = p.msb := by rw [BitVec.msb_append]; simp
  rw [BitVec.getLsbD_sshiftRight, hm, BitVec.getLsbD_append (x := p.sshiftRight 4), BitVec.getLsbD_sshiftRight]
  rw [BitVec.getLsbD_ushiftRight, BitVec.getLsbD_append (i := i), BitVec.getLsbD_ushiftRight] at h1
  by_cases h2 : i < 32
  · rw [if_pos h2, if_pos (by omega)]
    rw [if_pos h2] at h1
    rw [← h1, decide_eq_false (by omega : ¬ 64 ≤ i)]; rfl
  · rw [if_neg h2]
    rw [if_neg h2] at h1
    rw [decide_eq_false (by omega : ¬ 64 ≤ i), decide_eq_false (by omega : ¬ 32 ≤ i - 32)]
    by_cases h3 : 4 + i < 64
    · rw [if_pos h3, if_pos (by omega), h1]
    · rw [if_neg h3, if_neg (by omega)]

/-- The condition code of the pair. -/
theorem cc_pair (p q : W) : ccSign (p ++ q : BitVec 64).toInt =
    if p = 0#32 then (if q = 0#32 then 0#2 else 2#2) else ccSign p.toInt := by
  have hn : (p ++ q : BitVec 64).toNat = p.toNat * 2 ^ 32 + q.toNat := by
    rw [BitVec.toNat_append, Nat.shiftLeft_eq, Nat.mul_comm, ← Nat.two_pow_add_eq_or_of_lt q.isLt,
      Nat.mul_comm]
  have hp := p.isLt
  have hq := q.isLt
  have h0 : ∀ v : W, v = 0#32 ↔ v.toNat = 0 := fun v =>
    ⟨fun h => by rw [h]; rfl, fun h => BitVec.eq_of_toNat_eq h⟩
  have hi : (p ++ q : BitVec 64).toInt =
      if 2 * (p.toNat * 2 ^ 32 + q.toNat) < 2 ^ 64 then ((p.toNat * 2 ^ 32 + q.toNat : Nat) : Int)
      else ((p.toNat * 2 ^ 32 + q.toNat : Nat) : Int) - 2 ^ 64 := by
    rw [BitVec.toInt_eq_toNat_cond, hn]; rfl
  unfold ccSign
  rw [hi]
  simp only [h0]
  rcases toInt_cases p with ⟨h1, h2⟩ | ⟨h1, h2⟩ <;> rw [h2]
  · rw [if_pos (by omega : 2 * (p.toNat * 2 ^ 32 + q.toNat) < 2 ^ 64)]
    by_cases hp0 : p.toNat = 0
    · rw [if_pos hp0, hp0]
      by_cases hq0 : q.toNat = 0
      · rw [if_pos hq0, hq0]; rfl
      · rw [if_neg hq0, if_neg (by omega), if_neg (by omega)]; rfl
    · rw [if_neg hp0, if_neg (by omega), if_neg (by omega), if_neg (by omega), if_neg (by omega)]
  · rw [if_neg (by omega : ¬ 2 * (p.toNat * 2 ^ 32 + q.toNat) < 2 ^ 64), if_neg (by omega : ¬ p.toNat = 0),
      if_neg (by omega), if_pos (by omega), if_neg (by omega), if_pos (by omega)]

theorem arch_hiC {a : Arch} {s s' : S} {r : BitVec 4} {p q x : W} {c : BitVec 2}
    (h : archOf s = P2 a r p q)
    (ls : s'.LS = lsPut s.LS (3#2 ++ r) x) (cc : s'.CC = c) (pm : s'.PMASK = s.PMASK)
    (ia : s'.IA = s.IA) (mem : s'.mem = s.mem) (mp : s'.MP = s.MP) (key : s'.KEY = s.KEY)
    (am : s'.AMWP = s.AMWP) (mk : s'.MASK = s.MASK) : archOf s' = P2 (a.setCC c) r x q := by
  have h1 := arch_hi (s' := { s' with CC := s.CC }) h ls rfl pm ia mem mp key am mk
  have h2 : archOf s' = (archOf { s' with CC := s.CC }).setCC c := by rw [← cc]; rfl
  rw [h2, h1]; rfl

theorem AtEnd.updQ {e : Env} {tk : Bool} {a b : Arch} {r : BitVec 4} {p q p' q' : W} {s s' : S}
    (h : AtEnd e tk (P2 a r p q) s) (hc : Calm e tk s') (harch : archOf s' = P2 b r p' q')
    (hm : b.mem = a.mem) (hia : b.ia = a.ia)
    (hF : s'.F.toNat < 16) (hi : s'.IVA = s.IVA) (hr : s'.REFETCH = s.REFETCH)
    (hl : s'.LS 30 = s.LS 30) (hs : s'.SYLS1 = s.SYLS1) : AtEnd e tk (P2 b r p' q') s' :=
  h.updF hc harch ((P2_mem ..).trans (hm.trans (P2_mem ..).symm))
    ((P2_ia ..).trans (hia.trans (P2_ia ..).symm)) hF hi hr hl hs

/-- Words `89a` to `8bf`: the condition code by the second register when the first is zero. -/
theorem srda_end {e : Env} {tk : Bool} {a : Arch} {r : BitVec 4} (ho : EnvOk e) (hi : InStore e a)
    {s : S} {p q : W} (h : AtEnd e tk (P2 (a.setCC (ccSign p.toInt)) r p q) s) (hq : s.aob = q)
    (hr : s.ROAR = 2200 ||| 2 + (p == 0#32).toNat) :
    Ev e tk (Bd e tk (P2 (a.setCC (ccSign (p ++ q : BitVec 64).toInt)) r p q)) s := by
  rw [cc_pair]
  by_cases h0 : p = 0#32
  · rw [if_pos h0]
    subst h0
    refine Ev.plain (n := 0x89b) ho h.calm hr (by rw [w89b]; decide) (fun t => x89b e _ _)
      (fun t => by unfold memPart; rfl) fun t ht hc => ?_
    refine Ev.bind (P := fun s' => AtEnd e tk (P2 (a.setCC 0#2) r 0#32 q) s' ∧ s'.L = s'.LS 30 ∧
      s'.ROAR = 2236 ||| 2 + (q == 0#32).toNat) (.now ?_) ?_
    · refine ⟨h.updP hc h.arch h.f rfl rfl rfl rfl, rfl, ?_⟩
      show 2236 ||| 2 + (s.aob == 0#32).toNat = _
      rw [hq]
    · clear h hq hr hc
      rintro s2 ⟨h, l, hr⟩
      have hia : s2.IA = (P2 (a.setCC 0#2) r 0#32 q).ia := by rw [← h.arch]; rfl
      by_cases h1 : q = 0#32
      · rw [if_pos h1]
        refine Ev.wait (n := 0x8bf) ho h.calm (by rw [hr, h1]; rfl) (by rw [w8bf]; decide)
          (by rw [w8bf]; decide) (fun tu sa ex => x8bf e _ _) fun tu sa ex hex hc => .now ?_
        exact end_c ho h (hi.same (P2_ia ..)) hex hc.qt rfl h.arch rfl rfl l rfl rfl rfl rfl rfl rfl rfl
      · rw [if_neg h1]
        refine Ev.wait (n := 0x8be) ho h.calm (by rw [hr, show (q == 0#32) = false by simpa using h1]; rfl)
          (by rw [w8be]; decide)
          (by rw [w8be]; decide) (fun tu sa ex => x8be e _ _) fun tu sa ex hex hc => .now ?_
        refine end_c ho h (hi.same (P2_ia ..)) hex hc.qt rfl ?_ rfl rfl l rfl rfl rfl rfl rfl rfl rfl
        have h2 := h.arch
        have h3 : P2 (a.setCC 2#2) r 0#32 q = (P2 (a.setCC 0#2) r 0#32 q).setCC 2#2 := rfl
        rw [h3, ← h2]; rfl
  · rw [if_neg h0]
    refine end_a (n := 0x89a) ho h (hi.same (P2_ia ..)) ?_ (by rw [w89a, w144])
    rw [hr, show (p == 0#32) = false by simpa using h0]; rfl

theorem fill_back (m : W) (d : BitVec 4) (b : Bool) :
    byteOf (putByte m 3#2 (BitVec.setWidth 8 d <<< 4 ||| fillOf b)) 3#2 &&& 15#8 &&& 15#8 = fillOf b := by
  apply BitVec.eq_of_getLsbD_eq
  intro i hi
  cases b <;> interval_cases i <;> simp [byteOf, putByte, fillOf]

/-- By four, at word `8bc`. -/
theorem srda_four {e : Env} {tk : Bool} {a : Arch} {r : BitVec 4} (ho : EnvOk e) (hi : InStore e a)
    (he : r &&& 1#4 = 0#4) (n : Nat) : ∀ {s : S} {p q z z' : W} {c : BitVec 2},
      AtEnd e tk (P2 (a.setCC c) r z z') s →
      s.L = p → s.R = q → s.F = fillOf p.msb → s.MB = 3#2 → s.FN = 3#2 → s.MD = r →
      s.G.toNat % 16 = n → s.ROAR = 0x8bc →
      Ev e tk (Bd e tk (P2v (a.setCC (ccSign ((p ++ q : BitVec 64).sshiftRight (4 * (n + 1))).toInt)) r
        ((p ++ q : BitVec 64).sshiftRight (4 * (n + 1))))) s := by
  induction n with
  | zero =>
    intro s p q z z' c h l hR hf mb fn md hg hr
    refine Ev.plain (n := 0x8bc) ho h.calm hr (by rw [w8bc]; decide) (fun t => x8bc e _ _)
      (fun t => by unfold memPart; rfl) fun t ht hc => ?_
    refine Ev.bind (P := fun s' => AtEnd e tk (P2 (a.setCC (ccSign (p.sshiftRight 4).toInt)) r
        (p.sshiftRight 4) z') s' ∧ s'.aob = p.sshiftRight 4 ∧ s'.R = q ∧ s'.F = loDig p ∧
        s'.FN = 3#2 ∧ s'.MD = r ∧ s'.ROAR = 0x8b9) (.now ?_) ?_
    · refine ⟨h.updQ hc (arch_hiC (a := a.setCC c) (c := ccSign (p.sshiftRight 4).toInt) h.arch ?_ ?_ rfl rfl rfl rfl
        rfl rfl rfl) rfl rfl (lo_lt _) rfl rfl (put_ne30 _ fn _ _) rfl, ?_, hR, ?_, fn, md, ?_⟩
      · show lsPut s.LS (s.FN ++ s.MD) (s.L >>> 4 ||| (BitVec.setWidth 32 s.F &&& 15#32) <<< 28) = _
        rw [fn, md, hf, l, sar4]
      · rw [← fill_cc]
        show (if s.L >>> 4 = 0#32 ∧ (BitVec.setWidth 32 s.F &&& 15#32) <<< 28 = 0#32 then 0#2
          else if BitVec.getMsbD s.F 4 = true then 1#2 else 2#2) = _
        rw [hf, l]
      · show s.L >>> 4 ||| (BitVec.setWidth 32 s.F &&& 15#32) <<< 28 = _
        rw [hf, l, sar4]
      · show loDig s.L = _
        rw [l]
      · show 2232 ||| (s.G &&& 15#8 == 0#8).toNat = _
        rw [g_zero, hg, decide_eq_true rfl]; rfl
    · clear h l hR hf mb fn md hg hr hc
      rintro s2 ⟨h, l, hR, hf, fn, md, hr⟩
      have h44 : 4 * (0 + 1) = 4 := rfl
      rw [h44, sad4, P2v_append]
      generalize p.sshiftRight 4 = p1 at *
      refine Ev.plain (n := 0x8b9) ho h.calm hr (by rw [w8b9]; decide) (fun t => x8b9 e _ _)
        (fun t => by unfold memPart; rfl) fun t ht hc => ?_
      refine srda_end ho hi (h.updP hc (arch_lo he h.arch ?_ rfl rfl rfl rfl rfl rfl rfl rfl) h.f rfl rfl
        (put_ne30 _ fn _ _) rfl) ?_ ?_
      · show lsPut s2.LS (s2.FN ++ (s2.MD ||| 1#4))
          (s2.R >>> 4 ||| (BitVec.setWidth 32 s2.F &&& 15#32) <<< 28) = _
        rw [fn, md, hR, hf]
      · show s2.R >>> 4 ||| (BitVec.setWidth 32 s2.F &&& 15#32) <<< 28 = _
        rw [hR, hf]
      · show 2200 ||| 2 + (s2.aob == 0#32).toNat = _
        rw [l]
  | succ n ih =>
    intro s p q z z' c h l hR hf mb fn md hg hr
    refine Ev.plain (n := 0x8bc) ho h.calm hr (by rw [w8bc]; decide) (fun t => x8bc e _ _)
      (fun t => by unfold memPart; rfl) fun t ht hc => ?_
    refine Ev.bind (P := fun s' => AtEnd e tk (P2 (a.setCC (ccSign (p.sshiftRight 4).toInt)) r
        (p.sshiftRight 4) z') s' ∧ s'.L = p.sshiftRight 4 ∧ s'.R = q ∧ s'.F = loDig p ∧ s'.MB = 3#2 ∧
        byteOf s'.M 3#2 &&& 15#8 &&& 15#8 = fillOf p.msb ∧
        s'.FN = 3#2 ∧ s'.MD = r ∧ s'.G.toNat % 16 = n ∧ s'.ROAR = 0x8b8) (.now ?_) ?_
    · refine ⟨h.updQ hc (arch_hiC (a := a.setCC c) (c := ccSign (p.sshiftRight 4).toInt) h.arch ?_ ?_ rfl rfl rfl rfl
        rfl rfl rfl) rfl rfl (lo_lt _) rfl rfl (put_ne30 _ fn _ _) rfl, ?_, hR, ?_, mb, ?_, fn, md,
        g_and hg, ?_⟩
      · show lsPut s.LS (s.FN ++ s.MD) (s.L >>> 4 ||| (BitVec.setWidth 32 s.F &&& 15#32) <<< 28) = _
        rw [fn, md, hf, l, sar4]
      · rw [← fill_cc]
        show (if s.L >>> 4 = 0#32 ∧ (BitVec.setWidth 32 s.F &&& 15#32) <<< 28 = 0#32 then 0#2
          else if BitVec.getMsbD s.F 4 = true then 1#2 else 2#2) = _
        rw [hf, l]
      · show s.L >>> 4 ||| (BitVec.setWidth 32 s.F &&& 15#32) <<< 28 = _
        rw [hf, l, sar4]
      · show loDig s.L = _
        rw [l]
      · show byteOf (putByte s.M s.MB (BitVec.setWidth 8 s.MD <<< 4 ||| s.F)) 3#2 &&& 15#8 &&& 15#8 = _
        rw [mb, hf, fill_back]
      · show 2232 ||| (s.G &&& 15#8 == 0#8).toNat = _
        rw [g_zero, hg, decide_eq_false (Nat.succ_ne_zero n)]; rfl
    · clear h l hR hf mb fn md hg hr hc
      rintro s2 ⟨h, l, hR, hf, mb, hM, fn, md, hg, hr⟩
      refine Ev.plain (n := 0x8b8) ho h.calm hr (by rw [w8b8]; decide) (fun t => x8b8 e _ _)
        (fun t => by unfold memPart; rfl) fun t ht hc => ?_
      refine Ev.bind (P := fun s' => AtEnd e tk (P2 (a.setCC (ccSign (p.sshiftRight 4).toInt)) r
        (p.sshiftRight 4) z') s' ∧ s'.L = p.sshiftRight 4 ∧
        s'.R = (q >>> 4 ||| (BitVec.setWidth 32 (loDig p) &&& 15#32) <<< 28) ∧
        s'.F = fillOf p.msb ∧ s'.MB = 3#2 ∧
        s'.FN = 3#2 ∧ s'.MD = r ∧ s'.G.toNat % 16 = n ∧ s'.ROAR = 0x8bc) (.now ?_) ?_
      · refine ⟨h.updP hc h.arch ?_ rfl rfl rfl rfl, l, ?_, ?_, mb, fn, md, hg, rfl⟩
        · exact and15_lt _
        · show s2.R >>> 4 ||| (BitVec.setWidth 32 s2.F &&& 15#32) <<< 28 = _
          rw [hR, hf]
        · show byteOf s2.M s2.MB &&& 15#8 &&& 15#8 = _
          rw [mb, hM]
      · rintro s3 ⟨h3, l3, r3, hf3, mb3, fn3, md3, hg3, hr3⟩
        have h4 := ih h3 l3 r3 (by rw [hf3, BitVec.msb_sshiftRight]) mb3 fn3 md3 hg3 hr3
        rw [← sad4, ← BitVec.sshiftRight_add, show 4 + 4 * (n + 1) = 4 * (n + 1 + 1) by omega] at h4
        exact h4

/-- Word `8bb`: the first register and the condition code, then the shifts by four. -/
theorem srda_mid {e : Env} {tk : Bool} {a : Arch} {r : BitVec 4} (ho : EnvOk e) (hi : InStore e a)
    (he : r &&& 1#4 = 0#4) (n : Nat) {s : S} {p q z z' : W}
    (h : AtEnd e tk (P2 a r z z') s)
    (l : s.L = p) (hR : s.R = q) (hf : s.F = fillOf p.msb) (mb : s.MB = 3#2) (fn : s.FN = 3#2)
    (md : s.MD = r) (hg : s.G.toNat % 16 = n) (hr : s.ROAR = 0x8bb) :
      Ev e tk (Bd e tk (P2v (a.setCC (ccSign ((p ++ q : BitVec 64).sshiftRight (4 * n)).toInt)) r
        ((p ++ q : BitVec 64).sshiftRight (4 * n)))) s := by
  refine Ev.plain (n := 0x8bb) ho h.calm hr (by rw [w8bb]; decide) (fun t => x8bb e _ _)
    (fun t => by unfold memPart; rfl) fun t ht hc => ?_
  refine Ev.bind (P := fun s' => AtEnd e tk (P2 (a.setCC (ccSign p.toInt)) r p z') s' ∧ s'.aob = p ∧
      s'.L = p ∧ s'.R = q ∧ s'.F = fillOf p.msb ∧ s'.MB = 3#2 ∧ s'.FN = 3#2 ∧ s'.MD = r ∧
      s'.G = (s.G &&& 240#8 ||| s.G - 1#8 &&& 15#8) ∧
      s'.ROAR = if n = 0 then 0x8bd else 0x8bc) (.now ?_) ?_
  · refine ⟨h.updQ hc (arch_hiC (c := ccSign p.toInt) h.arch ?_ ?_ rfl rfl rfl rfl
        rfl rfl rfl) rfl rfl h.f rfl rfl (put_ne30 _ fn _ _) rfl, l, l, hR, hf, mb, fn, md, rfl, ?_⟩
    · show lsPut s.LS (s.FN ++ s.MD) s.L = _
      rw [fn, md, l]
    · rw [← cc_sign]
      show (if s.L = 0#32 then 0#2 else if BitVec.msb s.L = true then 1#2 else 2#2) = _
      rw [l]
    · show 2236 ||| (s.G &&& 15#8 == 0#8).toNat = _
      rw [g_zero, hg]
      by_cases h0 : n = 0
      · rw [if_pos h0, decide_eq_true h0]; rfl
      · rw [if_neg h0, decide_eq_false h0]; rfl
  · generalize hG : (s.G &&& 240#8 ||| s.G - 1#8 &&& 15#8) = G1
    clear h l hR hf mb fn md hr hc
    rintro s2 ⟨h, ha, l, hR, hf, mb, fn, md, hg2, hr⟩
    cases n with
    | zero =>
      rw [Nat.mul_zero, BitVec.sshiftRight_zero, P2v_append]
      refine Ev.plain (n := 0x8bd) ho h.calm hr (by rw [w8bd]; decide) (fun t => x8bd e _ _)
        (fun t => by unfold memPart; rfl) fun t ht hc => ?_
      refine srda_end ho hi (h.updP hc (arch_lo he h.arch ?_ rfl rfl rfl rfl rfl rfl rfl rfl) h.f rfl rfl
        (put_ne30 _ fn _ _) rfl) hR ?_
      · show lsPut s2.LS (s2.FN ++ (s2.MD ||| 1#4)) s2.R = _
        rw [fn, md, hR]
      · show 2200 ||| 2 + (s2.aob == 0#32).toNat = _
        rw [ha]
    | succ n =>
      refine srda_four ho hi he n h l hR hf mb fn md ?_ hr
      rw [hg2, ← hG]; exact g_and hg

/-- By one, at word `898`; the first register has been shifted. -/
theorem srda_one {e : Env} {tk : Bool} {a : Arch} {r : BitVec 4} (ho : EnvOk e) (hi : InStore e a)
    (he : r &&& 1#4 = 0#4) (g n : Nat) : ∀ {s : S} {p q z z' : W}, AtEnd e tk (P2 a r z z') s →
      s.L = p.sshiftRight 1 → s.R = q → s.Q = (p &&& 1#32 != 0#32) → s.F = fillOf p.msb →
      s.MB = 3#2 → s.FN = 3#2 → s.MD = r → s.G.toNat % 16 = g → s.LB.toNat = n → s.ROAR = 0x898 →
      Ev e tk (Bd e tk (P2v (a.setCC (ccSign ((p ++ q : BitVec 64).sshiftRight (n + 1 + 4 * g)).toInt)) r
        ((p ++ q : BitVec 64).sshiftRight (n + 1 + 4 * g)))) s := by
  induction n with
  | zero =>
    intro s p q z z' h l hR hq hf mb fn md hg hl hr
    refine Ev.plain (n := 0x898) ho h.calm hr (by rw [w898]; decide) (fun t => x898 e _ _)
      (fun t => by unfold memPart; rfl) fun t ht hc => ?_
    refine Ev.bind (P := fun s' => AtEnd e tk (P2 a r z z') s' ∧ s'.L = p.sshiftRight 1 ∧
      s'.R = (q >>> 1 ||| if (p &&& 1#32 != 0#32) = true then 2147483648#32 else 0#32) ∧
      s'.F = fillOf p.msb ∧ s'.MB = 3#2 ∧ s'.FN = 3#2 ∧ s'.MD = r ∧ s'.G.toNat % 16 = g ∧
      s'.ROAR = 0x8bb) (.now ?_) ?_
    · refine ⟨h.updP hc h.arch h.f rfl rfl rfl rfl, l, ?_, hf, mb, fn, md, hg, ?_⟩
      · simp only [bg, hR, hq]
      · show 2232 ||| 2 + (s.LB == 0#2).toNat = _
        rw [beq0, hl, decide_eq_true rfl]; rfl
    · rintro s3 ⟨h3, l3, r3, hf3, mb3, fn3, md3, hg3, hr3⟩
      have h4 := srda_mid ho hi he g h3 l3 r3 (by rw [hf3, BitVec.msb_sshiftRight]) mb3 fn3 md3 hg3 hr3
      rw [← sad1, ← BitVec.sshiftRight_add] at h4
      exact h4
  | succ n ih =>
    intro s p q z z' h l hR hq hf mb fn md hg hl hr
    refine Ev.plain (n := 0x898) ho h.calm hr (by rw [w898]; decide) (fun t => x898 e _ _)
      (fun t => by unfold memPart; rfl) fun t ht hc => ?_
    refine Ev.bind (P := fun s' => AtEnd e tk (P2 a r z z') s' ∧ s'.L = p.sshiftRight 1 ∧
      s'.R = (q >>> 1 ||| if (p &&& 1#32 != 0#32) = true then 2147483648#32 else 0#32) ∧
      s'.F = fillOf p.msb ∧ s'.MB = 3#2 ∧ s'.FN = 3#2 ∧ s'.MD = r ∧ s'.G.toNat % 16 = g ∧
      s'.LB.toNat = n ∧ s'.ROAR = 0x8ba) (.now ?_) ?_
    · refine ⟨h.updP hc h.arch h.f rfl rfl rfl rfl, l, ?_, hf, mb, fn, md, hg, low2_pred _ _ hl, ?_⟩
      · simp only [bg, hR, hq]
      · show 2232 ||| 2 + (s.LB == 0#2).toNat = _
        rw [beq0, hl, decide_eq_false (Nat.succ_ne_zero n)]; rfl
    · clear h l hR fn md hg hr hc hq hl hf mb
      rintro s2 ⟨h, l, hR, hf, mb, fn, md, hg, hl, hr⟩
      have hd := sad1 p q
      have hm : (p.sshiftRight 1).msb = p.msb := BitVec.msb_sshiftRight
      rw [show n + 1 + 1 + 4 * g = 1 + (n + 1 + 4 * g) by omega, BitVec.sshiftRight_add, hd]
      rw [← hm] at hf
      generalize p.sshiftRight 1 = p1 at *
      generalize (q >>> 1 ||| if (p &&& 1#32 != 0#32) = true then 2147483648#32 else 0#32) = q1 at *
      refine Ev.plain (n := 0x8ba) ho h.calm hr (by rw [w8ba]; decide) (fun t => x8ba e _ _)
        (fun t => by unfold memPart; rfl) fun t ht hc => ?_
      refine Ev.bind (P := fun s' => AtEnd e tk (P2 a r z z') s' ∧ s'.L = p1.sshiftRight 1 ∧
        s'.R = q1 ∧ s'.Q = (p1 &&& 1#32 != 0#32) ∧ s'.F = fillOf p1.msb ∧ s'.MB = 3#2 ∧ s'.FN = 3#2 ∧
        s'.MD = r ∧ s'.G.toNat % 16 = g ∧ s'.LB.toNat = n ∧ s'.ROAR = 0x898) (.now ?_) ?_
      · refine ⟨h.updP hc h.arch h.f rfl rfl rfl rfl, ?_, hR, ?_, hf, mb, fn, md, hg, hl, rfl⟩
        · simp only [bg, l, hf, sar1]
        · simp only [bg, l]
      · rintro s3 ⟨h3, l3, r3, q3, hf3, mb3, fn3, md3, hg3, hl3, hr3⟩
        exact ih h3 l3 r3 q3 hf3 mb3 fn3 md3 hg3 hl3 hr3

/-- SRDA. -/
theorem srda_exec {e : Env} {tk : Bool} {a : Arch} {i : BitVec 16} {x : W} {s : S} (ho : EnvOk e)
    (h : Op8 e tk a i x s) (hop : (opOf i).toNat = 0x8e) (hi : InStore e a)
    (he : dig1 i &&& 1#4 = 0#4) :
    Ev e tk (Bd e tk (((a.putPair (dig1 i) ((a.pair (dig1 i)).sshiftRight (x.toNat % 64)))).setCC
      (ccSign ((a.pair (dig1 i)).sshiftRight (x.toNat % 64)).toInt))) s := by
  have hro := h.roar
  rw [hop] at hro
  have hx := amount _ _ h.r
  rw [← P2_put he, Arch.pair, ← (even_or _ he).1]
  have hP := P2_self (a := a) (dig1 i)
  have hL2 : s.LS (s.FN ++ (s.MD ||| 1#4)) = a.gr (dig1 i ||| 1#4) := by
    rw [h.fn, h.md]; exact gr_of h.ae.arch _
  refine Ev.plain (n := 0x73a) ho h.ae.calm hro (by rw [w73a]; decide) (fun t => x73a e _ _)
    (fun t => by unfold memPart; rfl) fun t ht hc => ?_
  refine Ev.bind (P := fun s' => AtEnd e tk (P2 a (dig1 i) (a.gr (dig1 i)) (a.gr (dig1 i ||| 1#4))) s' ∧
    s'.FN = 3#2 ∧ s'.MD = dig1 i ∧ s'.MB = 3#2 ∧
    s'.L = a.gr (dig1 i) ∧ s'.R = a.gr (dig1 i ||| 1#4) ∧ s'.M = s.R >>> 1 ∧ s'.LB = s.R.setWidth 2 ∧
    s'.ROAR = 2216 ||| 2 * (a.gr (dig1 i)).msb.toNat + 1) (.now ?_) ?_
  · refine ⟨?_, h.fn, h.md, rfl, h.l, hL2, rfl, rfl, ?_⟩
    · rw [hP]
      exact h.ae.upd hc h.ae.arch rfl rfl rfl rfl rfl rfl rfl
    · show 2216 ||| 2 * s.L.msb.toNat + 1 = _
      rw [h.l]
  generalize a.gr (dig1 i ||| 1#4) = q at *
  generalize a.gr (dig1 i) = p at *
  generalize s.R = m at *
  generalize dig1 i = rr at *
  clear h hro hc hP hL2
  rintro s2 ⟨h, fn, md, mb, l, r, hM, lb, hr⟩
  refine Ev.bind (P := fun s' => AtEnd e tk (P2 a rr p q) s' ∧ s'.FN = 3#2 ∧ s'.MD = rr ∧ s'.MB = 3#2 ∧
    s'.L = p ∧ s'.R = q ∧ s'.M = m >>> 1 >>> 1 ∧ s'.LB = m.setWidth 2 - 1#2 ∧ s'.F = fillOf p.msb ∧
    s'.ROAR = if (m.setWidth 2).toNat = 0 then 0x897 else 0x896) ?_ ?_
  · have hro : (2196 ||| 2 * (s2.MD &&& 1#4 == 0#4).toNat +
        (s2.LB == 0#2 || !s2.MD &&& 1#4 == 0#4).toNat) =
        if (m.setWidth 2).toNat = 0 then 0x897 else 0x896 := by
      rw [lb, md, he, show ((0#4) == 0#4) = true from rfl, beq0]
      by_cases h0 : (m.setWidth 2).toNat = 0
      · rw [if_pos h0, decide_eq_true h0]; rfl
      · rw [if_neg h0, decide_eq_false h0]; rfl
    cases hm : p.msb with
    | false =>
      rw [hm] at hr
      refine Ev.plain (n := 0x8a9) ho h.calm hr (by rw [w8a9]; decide) (fun t => x8a9 e _ _)
        (fun t => by unfold memPart; rfl) fun t ht hc => .now ?_
      refine ⟨h.updP hc h.arch f0 rfl rfl rfl rfl, fn, md, mb, l, r, ?_, ?_, rfl, hro⟩
      · simp only [bg, hM]
      · simp only [bg, lb]
    | true =>
      rw [hm] at hr
      refine Ev.plain (n := 0x8ab) ho h.calm hr (by rw [w8ab]; decide) (fun t => x8ab e _ _)
        (fun t => by unfold memPart; rfl) fun t ht hc => .now ?_
      refine ⟨h.updP hc h.arch (fill_lt true) rfl rfl rfl rfl, fn, md, mb, l, r, ?_, ?_, rfl, hro⟩
      · simp only [bg, hM]
      · simp only [bg, lb]
  clear h fn md mb l r lb hr hM
  rintro s3 ⟨h, fn, md, mb, l, hR, hM, lb, hf, hr⟩
  have hg : (s3.G &&& 240#8 ||| byteOf s3.M s3.MB &&& 15#8 &&& 15#8).toNat % 16 =
      ((m >>> 1 >>> 1).setWidth 8 &&& 15#8).toNat := by rw [mb, g_setD, hM]
  by_cases h0 : (m.setWidth 2).toNat = 0
  · rw [if_pos h0] at hr
    refine Ev.plain (n := 0x897) ho h.calm hr (by rw [w897]; decide) (fun t => x897 e _ _)
      (fun t => by unfold memPart; rfl) fun t ht hc => ?_
    refine Ev.bind (P := fun s' => AtEnd e tk (P2 a rr p q) s' ∧ s'.L = p ∧ s'.R = q ∧
      s'.F = fillOf p.msb ∧ s'.MB = 3#2 ∧ s'.FN = 3#2 ∧
      s'.MD = rr ∧ s'.G.toNat % 16 = ((m >>> 1 >>> 1).setWidth 8 &&& 15#8).toNat ∧
      s'.ROAR = 0x8bb) (.now ?_) ?_
    · exact ⟨h.updP hc h.arch h.f rfl rfl rfl rfl, l, hR, hf, mb, fn, md, hg, rfl⟩
    · rintro s4 ⟨h4, l4, r4, hf4, mb4, fn4, md4, hg4, hr4⟩
      have h5 := srda_mid ho hi he _ h4 l4 r4 hf4 mb4 fn4 md4 hg4 hr4
      rw [show 4 * ((m >>> 1 >>> 1).setWidth 8 &&& 15#8).toNat = x.toNat % 64 by omega] at h5
      exact h5
  · rw [if_neg h0] at hr
    obtain ⟨n, hn⟩ : ∃ n, (m.setWidth 2).toNat = n + 1 := ⟨_, (Nat.succ_pred h0).symm⟩
    refine Ev.plain (n := 0x896) ho h.calm hr (by rw [w896]; decide) (fun t => x896 e _ _)
      (fun t => by unfold memPart; rfl) fun t ht hc => ?_
    refine Ev.bind (P := fun s' => AtEnd e tk (P2 a rr p q) s' ∧ s'.L = p.sshiftRight 1 ∧
        s'.R = q ∧ s'.Q = (p &&& 1#32 != 0#32) ∧ s'.F = fillOf p.msb ∧ s'.MB = 3#2 ∧
        s'.FN = 3#2 ∧ s'.MD = rr ∧
        s'.G.toNat % 16 = ((m >>> 1 >>> 1).setWidth 8 &&& 15#8).toNat ∧ s'.LB.toNat = n ∧
        s'.ROAR = 0x898) (.now ?_) ?_
    · refine ⟨h.updP hc h.arch h.f rfl rfl rfl rfl, ?_, hR, ?_, hf, mb, fn, md, hg, ?_, rfl⟩
      · simp only [bg, l, hf, sar1]
      · simp only [bg, l]
      · show s3.LB.toNat = n
        rw [lb]; exact low2_pred _ _ hn
    · rintro s4 ⟨h4, l4, r4, q4, hf4, mb4, fn4, md4, hg4, hl4, hr4⟩
      have h5 := srda_one ho hi he _ n h4 l4 r4 q4 hf4 mb4 fn4 md4 hg4 hl4 hr4
      rw [show n + 1 + 4 * ((m >>> 1 >>> 1).setWidth 8 &&& 15#8).toNat = x.toNat % 64 by omega] at h5
      exact h5

end Verif.Cpu50
