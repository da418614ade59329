import Verif.Cpu50.Rs

/-!
# Model 2050: arithmetic shift right and the shifts of two registers
-/

namespace Verif.Cpu50
open Verif.S360
attribute [local irreducible] ros

/-! ### SRA -/

/-- The digit which fills the left. -/
def fillOf (b : Bool) : B := if b then 15#8 else 0#8

theorem fill_lt (b : Bool) : (fillOf b).toNat < 16 := by cases b <;> decide

theorem sar1 (v : W) :
    v >>> 1 ||| (BitVec.setWidth 32 (fillOf v.msb) &&& 1#32) <<< 31 = v.sshiftRight 1 := by
  apply BitVec.eq_of_getLsbD_eq
  intro i hi
  rw [BitVec.getLsbD_sshiftRight]
  cases hm : v.msb <;> interval_cases i <;> simp [fillOf]

theorem sar4 (v : W) :
    v >>> 4 ||| (BitVec.setWidth 32 (fillOf v.msb) &&& 15#32) <<< 28 = v.sshiftRight 4 := by
  apply BitVec.eq_of_getLsbD_eq
  intro i hi
  rw [BitVec.getLsbD_sshiftRight]
  cases hm : v.msb <;> interval_cases i <;> simp [fillOf]

theorem fill_cc (v : W) :
    (if v >>> 4 = 0#32 ∧ (BitVec.setWidth 32 (fillOf v.msb) &&& 15#32) <<< 28 = 0#32 then 0#2
      else if BitVec.getMsbD (fillOf v.msb) 4 = true then 1#2 else 2#2) =
      ccSign (v.sshiftRight 4).toInt := by
  rw [← cc_sign, ← sar4]
  have h0 : ∀ a b : W, (a ||| b = 0#32) ↔ (a = 0#32 ∧ b = 0#32) := by
    intro a b
    constructor
    · intro h
      have : ∀ i, (a ||| b).getLsbD i = false := by rw [h]; simp
      simp only [BitVec.getLsbD_or, Bool.or_eq_false_iff] at this
      exact ⟨BitVec.eq_of_getLsbD_eq fun i _ => by rw [(this i).1]; simp,
        BitVec.eq_of_getLsbD_eq fun i _ => by rw [(this i).2]; simp⟩
    · rintro ⟨rfl, rfl⟩; rfl
  rw [sar4, BitVec.msb_sshiftRight, ← sar4]
  simp only [h0]
  cases v.msb <;> rfl

theorem g_and {k : BitVec 8} {n : Nat} (h : k.toNat % 16 = n + 1) :
    (k &&& 240#8 ||| k - 1#8 &&& 15#8).toNat % 16 = n := by
  have key : ∀ k : BitVec 8, k.toNat % 16 ≠ 0 →
    (k &&& 240#8 ||| k - 1#8 &&& 15#8).toNat % 16 = k.toNat % 16 - 1 := by decide +kernel
  rw [key k (by omega), h]; rfl

theorem g_zero (k : BitVec 8) : (k &&& 15#8 == 0#8) = decide (k.toNat % 16 = 0) := by
  have key : ∀ k : BitVec 8, (k &&& 15#8 == 0#8) = decide (k.toNat % 16 = 0) := by decide +kernel
  exact key k

theorem g_set (g k : BitVec 8) : (g &&& 240#8 ||| k &&& 15#8).toNat % 16 = (k &&& 15#8).toNat := by
  have h : (g &&& 240#8 ||| k &&& 15#8) &&& 15#8 = k &&& 15#8 := by
    apply BitVec.eq_of_getLsbD_eq
    intro i hi
    interval_cases i <;> simp
  have h2 := congrArg BitVec.toNat h
  rw [BitVec.toNat_and, show (15#8).toNat = 2 ^ 4 - 1 from rfl, Nat.and_two_pow_sub_one_eq_mod] at h2
  exact h2

/-- At word `883`: nothing remains. -/
theorem sra_end {e : Env} {tk : Bool} {a : Arch} {s : S} (ho : EnvOk e) (hi : InStore e a)
    (h : AtEnd e tk a s) (hr : s.ROAR = 0x883) : Ev e tk (Bd e tk a) s :=
  end_a (n := 0x883) ho h hi hr (by rw [w883, w144])

/-- The register and the condition code of a result. -/
def putA (a : Arch) (r : BitVec 4) (v : W) : Arch := (a.put r v).setCC (ccSign v.toInt)

theorem putA_mem (a : Arch) (r : BitVec 4) (v : W) : (putA a r v).mem = a.mem := rfl

theorem putA_ia (a : Arch) (r : BitVec 4) (v : W) : (putA a r v).ia = a.ia := rfl

theorem putA_putA (a : Arch) (r : BitVec 4) (v w : W) : putA (putA a r v) r w = putA a r w := by
  simp only [putA, Arch.put, Arch.setCC]
  congr 1
  funext i
  by_cases h : i = r <;> simp [h]

theorem arch_putA {s s' : S} {r : BitVec 4} {v : W} (ls : s'.LS = lsPut s.LS (3#2 ++ r) v)
    (cc : s'.CC = ccSign v.toInt) (pm : s'.PMASK = s.PMASK)
    (ia : s'.IA = s.IA) (mem : s'.mem = s.mem) (mp : s'.MP = s.MP) (key : s'.KEY = s.KEY)
    (am : s'.AMWP = s.AMWP) (mk : s'.MASK = s.MASK) : archOf s' = putA (archOf s) r v := by
  simp only [archOf, ls, cc, pm, ia, mem, mp, key, am, mk, gr_put, fr_put, sys_put, putA, Arch.put, Arch.setCC]

/-- Word `880`. -/
theorem sra_880 {e : Env} {tk : Bool} {a : Arch} {r : BitVec 4} (ho : EnvOk e) (n : Nat) (v : W)
    {s : S} (h : AtEnd e tk (putA a r v) s) (l : s.L = v) (fn : s.FN = 3#2) (md : s.MD = r)
    (hf : s.F = fillOf v.msb) (hg : s.G.toNat % 16 = n) (hr : s.ROAR = 0x880) :
    Ev e tk (fun s' => AtEnd e tk (putA a r (v.sshiftRight 4)) s' ∧ s'.FN = 3#2 ∧
      s'.MD = r ∧ s'.F = fillOf v.msb ∧ s'.L = v.sshiftRight 4 ∧
      s'.G = (s.G &&& 240#8 ||| s.G - 1#8 &&& 15#8) ∧
      s'.ROAR = if n = 0 then 0x883 else 0x880) s := by
  refine Ev.plain (n := 0x880) ho h.calm hr (by rw [w880]; decide) (fun t => x880 e _ _)
    (fun t => by unfold memPart; rfl) fun t ht hc => .now ?_
  refine ⟨h.upd hc ?_ (by rw [putA_mem, putA_mem]) (by rw [putA_ia, putA_ia]) rfl rfl rfl ?_ rfl,
    fn, md, hf, ?_, rfl, ?_⟩
  · rw [← putA_putA a r v, ← h.arch]
    refine arch_putA ?_ ?_ rfl rfl rfl rfl rfl rfl rfl
    · show lsPut s.LS (s.FN ++ s.MD) (s.L >>> 4 ||| (BitVec.setWidth 32 s.F &&& 15#32) <<< 28) = _
      rw [fn, md, hf, l, sar4]
    · rw [← fill_cc]
      show (if s.L >>> 4 = 0#32 ∧ (BitVec.setWidth 32 s.F &&& 15#32) <<< 28 = 0#32 then 0#2
        else if BitVec.getMsbD s.F 4 = true then 1#2 else 2#2) = _
      rw [hf, l]
  · show lsPut s.LS (s.FN ++ s.MD) _ 30 = _
    rw [fn, ls30_put]
  · show s.L >>> 4 ||| (BitVec.setWidth 32 s.F &&& 15#32) <<< 28 = _
    rw [hf, l, sar4]
  · show 2176 ||| 2 * (s.G &&& 15#8 == 0#8).toNat + (s.G &&& 15#8 == 0#8).toNat = _
    rw [g_zero, hg]
    by_cases h0 : n = 0
    · rw [if_pos h0, decide_eq_true h0]; rfl
    · rw [if_neg h0, decide_eq_false h0]; rfl

/-- Arithmetic shift by four, at word `880`. -/
theorem sra_four {e : Env} {tk : Bool} {a : Arch} {r : BitVec 4} (ho : EnvOk e) (hi : InStore e a)
    (n : Nat) : ∀ {s : S} {v : W}, AtEnd e tk (putA a r v) s → s.L = v → s.FN = 3#2 → s.MD = r →
      s.F = fillOf v.msb → s.G.toNat % 16 = n → s.ROAR = 0x880 →
      Ev e tk (Bd e tk (putA a r (v.sshiftRight (4 * (n + 1))))) s := by
  induction n with
  | zero =>
    intro s v h l fn md hf hg hr
    exact Ev.bind (sra_880 ho 0 v h l fn md hf hg hr) fun s2 h2 =>
      sra_end ho (hi.same rfl) h2.1 h2.2.2.2.2.2.2
  | succ n ih =>
    intro s v h l fn md hf hg hr
    refine Ev.bind (sra_880 ho (n + 1) v h l fn md hf hg hr) ?_
    rintro s2 ⟨h2, fn2, md2, hf2, hL, hg2, hr2⟩
    rw [if_neg (Nat.succ_ne_zero n)] at hr2
    have h3 := ih h2 hL fn2 md2 (by rw [hf2, BitVec.msb_sshiftRight]) (by rw [hg2]; exact g_and hg) hr2
    rw [← BitVec.sshiftRight_add, show 4 + 4 * (n + 1) = 4 * (n + 1 + 1) by omega] at h3
    exact h3

/-- Word `8a5`: the register and the condition code are set, then the shifts by four. -/
theorem sra_mid {e : Env} {tk : Bool} {a : Arch} {r : BitVec 4} (ho : EnvOk e) (hi : InStore e a)
    (n : Nat) {s : S} (h : AtEnd e tk a s) (fn : s.FN = 3#2) (md : s.MD = r)
    (hf : s.F = fillOf s.L.msb) (hg : s.G.toNat % 16 = n) (hr : s.ROAR = 0x8a5) :
    Ev e tk (Bd e tk (putA a r (s.L.sshiftRight (4 * n)))) s := by
  refine Ev.plain (n := 0x8a5) ho h.calm hr (by rw [w8a5]; decide) (fun t => x8a5 e _ _)
    (fun t => by unfold memPart; rfl) fun t ht hc => ?_
  refine Ev.bind (P := fun s' => AtEnd e tk (putA a r s.L) s' ∧ s'.FN = 3#2 ∧
    s'.MD = r ∧ s'.F = fillOf s.L.msb ∧ s'.L = s.L ∧ s'.G = (s.G &&& 240#8 ||| s.G - 1#8 &&& 15#8) ∧
    s'.ROAR = if n = 0 then 0x883 else 0x880) (.now ?_) ?_
  · refine ⟨h.upd hc ?_ rfl rfl rfl rfl rfl ?_ rfl, fn, md, hf, rfl, rfl, ?_⟩
    · rw [← h.arch]
      simp only [archOf, bg, fn, md, gr_put, fr_put, sys_put, putA, Arch.put, Arch.setCC, cc_sign]
    · simp only [bg, fn, ls30_put]
    · show 2176 ||| 2 * (s.G &&& 15#8 == 0#8).toNat + (s.G &&& 15#8 == 0#8).toNat = _
      rw [g_zero, hg]
      by_cases h0 : n = 0
      · rw [if_pos h0, decide_eq_true h0]; rfl
      · rw [if_neg h0, decide_eq_false h0]; rfl
  · rintro s2 ⟨h2, fn2, md2, hf2, hL, hg2, hr2⟩
    cases n with
    | zero => 
      simp only [Nat.mul_zero, BitVec.sshiftRight_zero]
      exact sra_end ho (hi.same rfl) h2 hr2
    | succ n =>
      exact sra_four (n := n) (r := r) ho hi h2 hL fn2 md2 hf2 (by rw [hg2]; exact g_and hg) hr2

/-- Arithmetic shift by one, at word `8a4`. -/
theorem sra_one {e : Env} {tk : Bool} {a : Arch} {r : BitVec 4} (ho : EnvOk e) (hi : InStore e a)
    (g n : Nat) : ∀ {s : S}, AtEnd e tk a s → s.FN = 3#2 → s.MD = r → s.F = fillOf s.L.msb →
      s.G.toNat % 16 = g → s.LB.toNat = n → s.ROAR = 0x8a4 →
      Ev e tk (Bd e tk (putA a r (s.L.sshiftRight (n + 1 + 4 * g)))) s := by
  induction n with
  | zero =>
    intro s h fn md hf hg hl hr
    refine Ev.plain (n := 0x8a4) ho h.calm hr (by rw [w8a4]; decide) (fun t => x8a4 e _ _)
      (fun t => by unfold memPart; rfl) fun t ht hc => ?_
    refine Ev.bind (P := fun s' => AtEnd e tk a s' ∧ s'.FN = 3#2 ∧ s'.MD = r ∧
      s'.F = fillOf s.L.msb ∧ s'.G.toNat % 16 = g ∧ s'.L = s.L.sshiftRight 1 ∧ s'.ROAR = 0x8a5)
      (.now ?_) ?_
    · refine ⟨h.upd hc h.arch rfl rfl rfl rfl rfl rfl rfl, fn, md, hf, hg, ?_, ?_⟩
      · simp only [bg, hf, sar1]
      · show 2212 ||| (s.LB == 0#2).toNat = _
        rw [beq0, hl]; rfl
    · rintro s2 ⟨h2, fn2, md2, hf2, hg2, hL, hr2⟩
      have hm : s2.L.msb = s.L.msb := by rw [hL, BitVec.msb_sshiftRight]
      have h3 := sra_mid ho hi g h2 fn2 md2 (by rw [hf2, hm]) hg2 hr2
      rw [hL, ← BitVec.sshiftRight_add] at h3
      exact h3
  | succ n ih =>
    intro s h fn md hf hg hl hr
    refine Ev.plain (n := 0x8a4) ho h.calm hr (by rw [w8a4]; decide) (fun t => x8a4 e _ _)
      (fun t => by unfold memPart; rfl) fun t ht hc => ?_
    refine Ev.bind (P := fun s' => AtEnd e tk a s' ∧ s'.FN = 3#2 ∧ s'.MD = r ∧
      s'.F = fillOf s.L.msb ∧ s'.G.toNat % 16 = g ∧ s'.L = s.L.sshiftRight 1 ∧ s'.LB.toNat = n ∧
      s'.ROAR = 0x8a4) (.now ?_) ?_
    · refine ⟨h.upd hc h.arch rfl rfl rfl rfl rfl rfl rfl, fn, md, hf, hg, ?_, low2_pred _ _ hl, ?_⟩
      · simp only [bg, hf, sar1]
      · show 2212 ||| (s.LB == 0#2).toNat = _
        rw [beq0, hl, decide_eq_false (Nat.succ_ne_zero n)]; rfl
    · rintro s2 ⟨h2, fn2, md2, hf2, hg2, hL, hl2, hr2⟩
      have hm : s2.L.msb = s.L.msb := by rw [hL, BitVec.msb_sshiftRight]
      have h3 := ih h2 fn2 md2 (by rw [hf2, hm]) hg2 hl2 hr2
      rw [hL, ← BitVec.sshiftRight_add, show 1 + (n + 1 + 4 * g) = n + 1 + 1 + 4 * g by omega] at h3
      exact h3

/-- SRA. -/
theorem sra_exec {e : Env} {tk : Bool} {a : Arch} {i : BitVec 16} {x : W} {s : S} (ho : EnvOk e)
    (h : Op8 e tk a i x s) (hop : (opOf i).toNat = 0x8a) (hi : InStore e a) :
    Ev e tk (Bd e tk (putA a (dig1 i) ((a.gr (dig1 i)).sshiftRight (x.toNat % 64)))) s := by
  have hro := h.roar
  rw [hop] at hro
  have hx := amount _ _ h.r
  rw [← h.l]
  refine Ev.plain (n := 0x72a) ho h.ae.calm hro (by rw [w72a]; decide) (fun t => x72a e _ _)
    (fun t => by unfold memPart; rfl) fun t ht hc => ?_
  refine Ev.bind (P := fun s' => AtEnd e tk a s' ∧ s'.FN = 3#2 ∧ s'.MD = dig1 i ∧
    s'.L = s.L ∧ s'.R = s.R >>> 1 ∧ s'.LB = s.R.setWidth 2 ∧
    s'.ROAR = 2216 ||| 2 * s.L.msb.toNat) (.now ?_) ?_
  · exact ⟨h.ae.upd hc h.ae.arch rfl rfl rfl rfl rfl rfl rfl, h.fn, h.md, rfl, rfl, rfl, rfl⟩
  generalize s.L = v at *
  generalize s.R = m at *
  clear h hro hc
  rintro s2 ⟨h, fn, md, l, r, lb, hr⟩
  refine Ev.bind (P := fun s' => AtEnd e tk a s' ∧ s'.FN = 3#2 ∧ s'.MD = dig1 i ∧
    s'.L = v ∧ s'.R = m >>> 1 >>> 1 ∧ s'.LB = m.setWidth 2 - 1#2 ∧ s'.F = fillOf v.msb ∧
    s'.ROAR = if (m.setWidth 2).toNat = 0 then 0x8a7 else 0x8a6) ?_ ?_
  · have hro : (2212 ||| 2 + (s2.LB == 0#2).toNat) =
        if (m.setWidth 2).toNat = 0 then 0x8a7 else 0x8a6 := by
      rw [lb, beq0]
      by_cases h0 : (m.setWidth 2).toNat = 0
      · rw [if_pos h0, decide_eq_true h0]; rfl
      · rw [if_neg h0, decide_eq_false h0]; rfl
    cases hm : v.msb with
    | false =>
      rw [hm] at hr
      refine Ev.plain (n := 0x8a8) ho h.calm hr (by rw [w8a8]; decide) (fun t => x8a8 e _ _)
        (fun t => by unfold memPart; rfl) fun t ht hc => .now ?_
      refine ⟨h.updF hc h.arch rfl rfl f0 rfl rfl rfl rfl, fn, md, l, ?_, ?_, rfl, hro⟩
      · simp only [bg, r]
      · simp only [bg, lb]
    | true =>
      rw [hm] at hr
      refine Ev.plain (n := 0x8aa) ho h.calm hr (by rw [w8aa]; decide) (fun t => x8aa e _ _)
        (fun t => by unfold memPart; rfl) fun t ht hc => .now ?_
      refine ⟨h.updF hc h.arch rfl rfl (fill_lt true) rfl rfl rfl rfl, fn, md, l, ?_, ?_, rfl, hro⟩
      · simp only [bg, r]
      · simp only [bg, lb]
  clear h fn md l r lb hr
  rintro s3 ⟨h, fn, md, l, r, lb, hf, hr⟩
  have hg : (s3.G &&& 240#8 ||| (BitVec.setWidth 8 s3.R) &&& 15#8).toNat % 16 =
      ((m >>> 1 >>> 1).setWidth 8 &&& 15#8).toNat := by rw [g_set, r]
  by_cases h0 : (m.setWidth 2).toNat = 0
  · rw [if_pos h0] at hr
    refine Ev.plain (n := 0x8a7) ho h.calm hr (by rw [w8a7]; decide) (fun t => x8a7 e _ _)
      (fun t => by unfold memPart; rfl) fun t ht hc => ?_
    refine Ev.bind (P := fun s' => AtEnd e tk a s' ∧ s'.FN = 3#2 ∧ s'.MD = dig1 i ∧
      s'.G.toNat % 16 = ((m >>> 1 >>> 1).setWidth 8 &&& 15#8).toNat ∧ s'.L = v ∧
      s'.F = fillOf v.msb ∧ s'.ROAR = 0x8a5) (.now ?_) ?_
    · exact ⟨h.upd hc h.arch rfl rfl rfl rfl rfl rfl rfl, fn, md, hg, l, hf, rfl⟩
    · rintro s4 ⟨h4, fn4, md4, hg, hv, hf4, hr4⟩
      have h5 := sra_mid ho hi _ h4 fn4 md4 (by rw [hv]; exact hf4) hg hr4
      rw [hv, show 4 * ((m >>> 1 >>> 1).setWidth 8 &&& 15#8).toNat = x.toNat % 64 by omega] at h5
      exact h5
  · rw [if_neg h0] at hr
    obtain ⟨n, hn⟩ : ∃ n, (m.setWidth 2).toNat = n + 1 := ⟨_, (Nat.succ_pred h0).symm⟩
    have hn1 := low2_pred _ _ hn
    refine Ev.plain (n := 0x8a6) ho h.calm hr (by rw [w8a6]; decide) (fun t => x8a6 e _ _)
      (fun t => by unfold memPart; rfl) fun t ht hc => ?_
    refine Ev.bind (P := fun s' => AtEnd e tk a s' ∧ s'.FN = 3#2 ∧ s'.MD = dig1 i ∧
      s'.G.toNat % 16 = ((m >>> 1 >>> 1).setWidth 8 &&& 15#8).toNat ∧ s'.L = v.sshiftRight 1 ∧
      s'.F = fillOf v.msb ∧ s'.LB = m.setWidth 2 - 1#2 - 1#2 ∧
      s'.ROAR = if n = 0 then 0x8a5 else 0x8a4) (.now ?_) ?_
    · refine ⟨h.upd hc h.arch rfl rfl rfl rfl rfl rfl rfl, fn, md, hg, ?_, hf, ?_, ?_⟩
      · simp only [bg, l, hf, sar1]
      · simp only [bg, lb]
      · show 2212 ||| (s3.LB == 0#2).toNat = _
        rw [lb, beq0, hn1]
        by_cases h1 : n = 0
        · rw [if_pos h1, decide_eq_true h1]; rfl
        · rw [if_neg h1, decide_eq_false h1]; rfl
    · rintro s4 ⟨h4, fn4, md4, hg, hv, hf4, hlb, hr4⟩
      have hm : s4.L.msb = v.msb := by rw [hv, BitVec.msb_sshiftRight]
      by_cases h1 : n = 0
      · rw [if_pos h1] at hr4
        have h5 := sra_mid ho hi _ h4 fn4 md4 (by rw [hf4, hm]) hg hr4
        rw [hv, ← BitVec.sshiftRight_add,
          show 1 + 4 * ((m >>> 1 >>> 1).setWidth 8 &&& 15#8).toNat = x.toNat % 64 by omega] at h5
        exact h5
      · rw [if_neg h1] at hr4
        obtain ⟨k, rfl⟩ : ∃ k, n = k + 1 := ⟨_, (Nat.succ_pred h1).symm⟩
        have h5 := sra_one ho hi _ k h4 fn4 md4 (by rw [hf4, hm]) hg
          (by rw [hlb]; exact low2_pred _ _ hn1) hr4
        rw [hv, ← BitVec.sshiftRight_add,
          show 1 + (k + 1 + 4 * ((m >>> 1 >>> 1).setWidth 8 &&& 15#8).toNat) = x.toNat % 64 by
            omega] at h5
        exact h5

/-! ### Two registers -/

/-- Values in the registers of a pair. -/
def P2 (a : Arch) (r : BitVec 4) (p q : W) : Arch :=
  { a with gr := fun i => if i = r then p else if i = r ||| 1#4 then q else a.gr i }

theorem P2_mem (a : Arch) (r : BitVec 4) (p q : W) : (P2 a r p q).mem = a.mem := rfl

theorem P2_ia (a : Arch) (r : BitVec 4) (p q : W) : (P2 a r p q).ia = a.ia := rfl

theorem even_or : ∀ r : BitVec 4, r &&& 1#4 = 0#4 → r ||| 1#4 = r + 1 ∧ ¬ r ||| 1#4 = r := by decide

theorem P2_put {a : Arch} {r : BitVec 4} (he : r &&& 1#4 = 0#4) (v : BitVec 64) :
    P2 a r (v.extractLsb' 32 32) (v.extractLsb' 0 32) = a.putPair r v := by
  obtain ⟨h1, h2⟩ := even_or r he
  simp only [P2, Arch.putPair, Arch.put, h1]
  congr 1
  funext i
  by_cases h3 : i = r
  · subst h3
    rw [h1] at h2
    rw [if_pos rfl, if_neg (fun h => h2 h.symm)]
    exact (if_pos rfl).symm
  · rw [if_neg h3]
    by_cases h4 : i = r + 1
    · rw [if_pos h4, if_pos h4]
    · rw [if_neg h4, if_neg h4]; exact (if_neg h3).symm

theorem P2_self {a : Arch} (r : BitVec 4) : P2 a r (a.gr r) (a.gr (r ||| 1#4)) = a := by
  unfold P2
  have h : (fun i => if i = r then a.gr r else if i = r ||| 1#4 then a.gr (r ||| 1#4) else a.gr i) =
      a.gr := by
    funext i
    by_cases h3 : i = r
    · rw [if_pos h3, h3]
    · rw [if_neg h3]
      by_cases h4 : i = r ||| 1#4
      · rw [if_pos h4, h4]
      · rw [if_neg h4]
  rw [h]

theorem arch_hi {a : Arch} {s s' : S} {r : BitVec 4} {p q x : W} (h : archOf s = P2 a r p q)
    (ls : s'.LS = lsPut s.LS (3#2 ++ r) x) (cc : s'.CC = s.CC) (pm : s'.PMASK = s.PMASK)
    (ia : s'.IA = s.IA) (mem : s'.mem = s.mem) (mp : s'.MP = s.MP) (key : s'.KEY = s.KEY)
    (am : s'.AMWP = s.AMWP) (mk : s'.MASK = s.MASK) : archOf s' = P2 a r x q := by
  have h1 : P2 a r x q = (archOf s).put r x := by
    rw [h]
    simp only [P2, Arch.put]
    congr 1
    funext i
    by_cases h3 : i = r
    · rw [if_pos h3, if_pos h3]
    · rw [if_neg h3, if_neg h3, if_neg h3]
  rw [h1]
  simp only [archOf, ls, cc, pm, ia, mem, mp, key, am, mk, gr_put, fr_put, sys_put, Arch.put]

theorem arch_lo {a : Arch} {s s' : S} {r : BitVec 4} {p q x : W} (he : r &&& 1#4 = 0#4)
    (h : archOf s = P2 a r p q)
    (ls : s'.LS = lsPut s.LS (3#2 ++ (r ||| 1#4)) x) (cc : s'.CC = s.CC) (pm : s'.PMASK = s.PMASK)
    (ia : s'.IA = s.IA) (mem : s'.mem = s.mem) (mp : s'.MP = s.MP) (key : s'.KEY = s.KEY)
    (am : s'.AMWP = s.AMWP) (mk : s'.MASK = s.MASK) : archOf s' = P2 a r p x := by
  have h2 := (even_or r he).2
  have h1 : P2 a r p x = (archOf s).put (r ||| 1#4) x := by
    rw [h]
    simp only [P2, Arch.put]
    congr 1
    funext i
    by_cases h3 : i = r
    · rw [if_pos h3, if_neg (fun h4 => h2 (h4.symm.trans h3)), if_pos h3]
    · rw [if_neg h3, if_neg h3]
      by_cases h4 : i = r ||| 1#4
      · rw [if_pos h4, if_pos h4]
      · rw [if_neg h4, if_neg h4, if_neg h4]
  rw [h1]
  simp only [archOf, ls, cc, pm, ia, mem, mp, key, am, mk, gr_put, fr_put, sys_put, Arch.put]

theorem AtEnd.updP {e : Env} {tk : Bool} {a : Arch} {r : BitVec 4} {p q p' q' : W} {s s' : S}
    (h : AtEnd e tk (P2 a r p q) s) (hc : Calm e tk s') (harch : archOf s' = P2 a r p' q')
    (hF : s'.F.toNat < 16) (hi : s'.IVA = s.IVA) (hr : s'.REFETCH = s.REFETCH)
    (hl : s'.LS 30 = s.LS 30) (hs : s'.SYLS1 = s.SYLS1) : AtEnd e tk (P2 a r p' q') s' :=
  h.updF hc harch ((P2_mem ..).trans (P2_mem ..).symm) ((P2_ia ..).trans (P2_ia ..).symm) hF hi hr hl hs

theorem InStore.p2 {e : Env} {a : Arch} {r : BitVec 4} {p q : W} (h : InStore e a) :
    InStore e (P2 a r p q) := h.same (P2_ia ..)

/-- The halves of a shifted pair. -/
theorem srd1 (p q : W) : (p ++ q : BitVec 64) >>> 1 =
    (p >>> 1) ++ (q >>> 1 ||| if (p &&& 1#32 != 0#32) = true then 2147483648#32 else 0#32) := by
  have h : (if (p &&& 1#32 != 0#32) = true then 2147483648#32 else 0#32 : W) = p <<< 31 := by
    have h0 : p &&& 1#32 = (p.setWidth 1).setWidth 32 := by
      apply BitVec.eq_of_getLsbD_eq
      intro i hi
      interval_cases i <;> simp
    have h1 : p <<< 31 = ((p.setWidth 1).setWidth 32) <<< 31 := by
      apply BitVec.eq_of_getLsbD_eq
      intro i hi
      interval_cases i <;> simp
    rw [h0, h1]
    have key : ∀ b : BitVec 1, (if (b.setWidth 32 != 0#32) = true then 2147483648#32 else 0#32 : W) =
      (b.setWidth 32) <<< 31 := by decide
    exact key _
  rw [h]
  apply BitVec.eq_of_getLsbD_eq
  intro i hi
  simp only [BitVec.getLsbD_append, BitVec.getLsbD_ushiftRight, BitVec.getLsbD_or,
    BitVec.getLsbD_shiftLeft]
  interval_cases i <;> simp

theorem srd4 (p q : W) : (p ++ q : BitVec 64) >>> 4 =
    (p >>> 4) ++ (q >>> 4 ||| (BitVec.setWidth 32 (loDig p) &&& 15#32) <<< 28) := by
  apply BitVec.eq_of_getLsbD_eq
  intro i hi
  unfold loDig
  simp only [BitVec.getLsbD_append, BitVec.getLsbD_ushiftRight, BitVec.getLsbD_or,
    BitVec.getLsbD_shiftLeft, BitVec.getLsbD_and, BitVec.getLsbD_setWidth]
  interval_cases i <;> simp

theorem sld1 (p q : W) : (p ++ q : BitVec 64) <<< 1 =
    (p <<< 1 ||| bitW q.msb) ++ (q <<< 1) := by
  have h : bitW q.msb = q >>> 31 := by
    apply BitVec.eq_of_getLsbD_eq
    intro i hi
    unfold bitW
    cases hm : q.msb <;> rw [BitVec.msb_eq_getLsbD_last] at hm <;> interval_cases i <;> simp_all
  rw [h]
  apply BitVec.eq_of_getLsbD_eq
  intro i hi
  simp only [BitVec.getLsbD_append, BitVec.getLsbD_ushiftRight, BitVec.getLsbD_or,
    BitVec.getLsbD_shiftLeft]
  interval_cases i <;> simp

theorem sld4 (p q : W) : (p ++ q : BitVec 64) <<< 4 =
    (p <<< 4 ||| BitVec.setWidth 32 (hiDig q) &&& 15#32) ++ (q <<< 4) := by
  apply BitVec.eq_of_getLsbD_eq
  intro i hi
  unfold hiDig
  simp only [BitVec.getLsbD_append, BitVec.getLsbD_ushiftRight, BitVec.getLsbD_or,
    BitVec.getLsbD_shiftLeft, BitVec.getLsbD_and, BitVec.getLsbD_setWidth]
  interval_cases i <;> simp

/-- Pair with the halves of `v`. -/
def P2v (a : Arch) (r : BitVec 4) (v : BitVec 64) : Arch :=
  P2 a r (v.extractLsb' 32 32) (v.extractLsb' 0 32)

theorem P2v_append (a : Arch) (r : BitVec 4) (p q : W) : P2v a r (p ++ q) = P2 a r p q := by
  have h1 : (p ++ q : BitVec 64).extractLsb' 32 32 = p := by
    apply BitVec.eq_of_getLsbD_eq
    intro i hi
    rw [BitVec.getLsbD_extractLsb', BitVec.getLsbD_append]
    simp [hi]
  have h2 : (p ++ q : BitVec 64).extractLsb' 0 32 = q := by
    apply BitVec.eq_of_getLsbD_eq
    intro i hi
    rw [BitVec.getLsbD_extractLsb', BitVec.getLsbD_append]
    simp [hi]
  unfold P2v
  rw [h1, h2]

end Verif.Cpu50
