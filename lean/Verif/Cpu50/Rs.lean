import Verif.Cpu50.Si
import Verif.Cpu50.Words5

/-!
# Model 2050: RS instructions

BXH, BXLE and the logical shifts of one register.
-/

namespace Verif.Cpu50
open Verif.S360
attribute [local irreducible] ros

theorem f0 : (0#8).toNat < 16 := by decide

/-- The operand address (more than 24 bits of it) is in `R`, the first operand in `L`. -/
structure Op8 (e : Env) (tk : Bool) (a : Arch) (i : BitVec 16) (x : W) (s : S) : Prop where
  ae : AtEnd e tk a s
  fn : s.FN = 3#2
  md : s.MD = dig1 i
  j : s.J = dig2 i
  il : s.ILC = 2#2
  f : s.F = 0#8
  l : s.L = a.gr (dig1 i)
  r : s.R &&& 16777215#32 = x
  roar : s.ROAR = 1792 ||| ((opOf i).toNat % 16) <<< 2 ||| 2

/-- `120` or `121`. -/
theorem to_op8 {e : Env} {tk : Bool} {a : Arch} {i i1 : BitVec 16} {s : S} (ho : EnvOk e)
    (h : FetRX e tk a i i1 s) (hop : (opOf i).toNat / 16 = 8) :
    Ev e tk (Op8 e tk a i (ea a 0 (i1.extractLsb' 12 4) (i1.extractLsb' 0 12))) s := by
  have hro := h.roar
  have h64 : ¬ (opOf i).toNat / 64 = 1 := by omega
  rw [hop, decide_eq_false h64, Bool.and_false] at hro
  have hd := h.d
  have h1 := h.s1
  have hl := h.l
  unfold ea
  generalize hB : i1.extractLsb' 12 4 = b at *
  generalize hD : (i1.extractLsb' 0 12).setWidth 32 = d at *
  rw [if_pos rfl]
  have hL : s.LS (s.FN ++ s.MD) = a.gr (dig1 i) := by rw [h.fn, h.md]; exact gr_of h.arch _
  by_cases hb : b = 0
  · rw [if_pos hb]
    rw [hb] at h1
    rw [h1] at hro
    have hz : (0 : W) + 0 + d = s.M &&& 65535#32 := by rw [hd]; simp
    rw [hz]
    refine Ev.plain ho h.calm (n := 0x121) hro (by rw [w121]; decide) (fun t => x121 e _ _)
      (fun t => by unfold memPart; rfl) fun t ht hc => .now ?_
    exact ⟨h.atEnd.updF hc h.arch rfl rfl f0 rfl rfl rfl rfl, h.fn, h.md, h.j, h.ilc, rfl, hL, rfl,
      by simp only [bg, nib6 h.m1]⟩
  · rw [if_neg hb]
    rw [show (b == 0) = false by simpa using hb] at h1
    rw [h1] at hro
    have hz : (0 : W) + a.gr b + d = s.L + (s.M &&& 65535#32) := by rw [hd, hl]; simp
    rw [hz]
    refine Ev.plain ho h.calm (n := 0x120) hro (by rw [w120]; decide) (fun t => x120 e _ _)
      (fun t => by unfold memPart; rfl) fun t ht hc => .now ?_
    exact ⟨h.atEnd.updF hc h.arch rfl rfl f0 rfl rfl rfl rfl, h.fn, h.md, h.j, h.ilc, rfl, hL, rfl,
      by simp only [bg, nib6 h.m1]⟩

/-! ### BXH and BXLE -/

/-- The sign of the difference in `F`, as the words `780` to `783` test it. -/
theorem sign_f (x : W) :
    ((BitVec.setWidth 8 (x >>> 31) ||| 0#8 <<< 1) &&& 15#8 == 0#8) = !x.msb := by
  have h : BitVec.setWidth 8 (x >>> 31) = if x.msb then 1#8 else 0#8 := by
    apply BitVec.eq_of_getLsbD_eq
    intro i hi
    interval_cases i <;> cases hm : x.msb <;>
      simp_all [BitVec.msb_eq_getLsbD_last]
  rw [h]
  cases x.msb <;> rfl

/-- Sign and overflow of the difference give the comparison. -/
theorem cmp_bits (c v : W) : ((c - v).msb ^^ !decide (fits (c.toInt - v.toInt))) =
    decide (c.toInt < v.toInt) := by
  have h0 := (c - v).isLt
  have h1 := c.isLt
  have h2 := v.isLt
  have h3 : (c - v).toNat = (2 ^ 32 - v.toNat + c.toNat) % 2 ^ 32 := BitVec.toNat_sub ..
  rw [bit31]
  by_cases h8 : 2 ^ 31 ≤ (c - v).toNat <;> by_cases h9 : fits (c.toInt - v.toInt) <;>
    by_cases h10 : c.toInt < v.toInt <;>
    first
      | (simp only [h8, h9, h10, decide_true, decide_false]; rfl)
      | (exfalso
         unfold fits at h9
         rcases toInt_cases c with ⟨h4, h5⟩ | ⟨h4, h5⟩ <;>
           rcases toInt_cases v with ⟨h6, h7⟩ | ⟨h6, h7⟩ <;> omega)

/-- Words `711` and `713`, or `717` and `715`: no branch, or a branch to the address in `R`. -/
theorem bx_end {e : Env} {tk : Bool} {a a' : Arch} {s : S} (ho : EnvOk e) (h : AtEnd e tk a s)
    (hi : InStore e a') {b : Bool} (ha : a' = if b then a.jump s.R else a)
    (hr : s.ROAR = (if b then 0x713 else 0x711) ∨ s.ROAR = (if b then 0x715 else 0x717)) :
    Ev e tk (Bd e tk a') s := by
  cases b with
  | false =>
    obtain rfl : a' = a := ha
    rcases hr with hr | hr
    · exact end_a (n := 0x711) ho h hi hr (by rw [w711, w144])
    · exact end_a (n := 0x717) ho h hi hr (by rw [w717, w144])
  | true =>
    obtain rfl : a' = a.jump s.R := ha
    rcases hr with hr | hr
    · refine Ev.wait (n := 0x713) ho h.calm hr (by rw [w713]; decide) (by rw [w713]; decide)
        (fun tu sa ex => x713 e _ _) fun tu sa ex hex hc => .now ?_
      exact branch_end ho h.calm h.f hi hex hc.qt rfl h.arch rfl rfl rfl rfl rfl rfl rfl rfl
    · exact br_tail2 ho h hi hr

/-- From word `73f`: the sum of `L` and `R` is compared. -/
theorem bx_run {e : Env} {tk : Bool} {a a' : Arch} {i : BitVec 16} {s : S} (ho : EnvOk e)
    (h : AtEnd e tk a s) (fn : s.FN = 3#2) (md : s.MD = dig1 i) (hj : s.J = dig2 i)
    (l : s.L = a.gr (dig1 i)) (r : s.R = a.gr (dig2 i)) (hr : s.ROAR = 0x73f)
    (hi : InStore e a')
    (ha : a' = if s.St.s3 = decide ((a.gr (dig2 i ||| 1)).toInt <
        (a.gr (dig1 i) + a.gr (dig2 i)).toInt)
      then (a.put (dig1 i) (a.gr (dig1 i) + a.gr (dig2 i))).jump s.M
      else a.put (dig1 i) (a.gr (dig1 i) + a.gr (dig2 i))) : Ev e tk (Bd e tk a') s := by
  have hcmp : s.LS (s.FN ++ (s.J ||| 1#4)) = a.gr (dig2 i ||| 1) := by
    rw [fn, hj]; exact gr_of h.arch _
  generalize a.gr (dig2 i ||| 1) = c at *
  refine Ev.plain (n := 0x73f) ho h.calm hr (by rw [w73f]; decide) (fun t => x73f e _ _)
    (fun t => by unfold memPart; rfl) fun t ht hc => ?_
  rw [← l, ← r] at ha
  refine Ev.bind (P := fun s' => AtEnd e tk a s' ∧ s'.FN = 3#2 ∧ s'.MD = dig1 i ∧ s'.F = 0#8 ∧
    s'.L = s.L + s.R ∧ s'.R = c ∧ s'.ROAR = 0x7b2 ∧ s'.M = s.M ∧ s'.St.s3 = s.St.s3) (.now ?_) ?_
  · exact ⟨h.updF hc h.arch rfl rfl f0 rfl rfl rfl rfl, fn, md, rfl, rfl, hcmp, rfl, rfl, rfl⟩
  clear hc hcmp
  generalize s.L + s.R = v at *
  generalize s.M = m at *
  generalize s.St.s3 = bxh at *
  clear h fn md hj l r hr
  rintro s2 ⟨h, fn, md, f, l, r, hr, hm, h3⟩
  refine Ev.plain (n := 0x7b2) ho h.calm hr (by rw [w7b2]; decide) (fun t => x7b2 e _ _)
    (fun t => by unfold memPart; rfl) fun t ht hc => ?_
  refine Ev.bind (P := fun s' => AtEnd e tk (a.put (dig1 i) v) s' ∧
    (s'.F == 0#8) = !(c - v).msb ∧ s'.M = m ∧
    s'.ROAR = 1920 + 2 * bxh.toNat + (!decide (fits (c.toInt - v.toInt))).toNat) (.now ?_) ?_
  · obtain rfl := h.arch
    refine ⟨h.updF hc ?_ rfl rfl (and15_lt _) rfl rfl ?_ rfl, ?_, hm, ?_⟩
    · simp only [archOf, bg, fn, md, gr_put, fr_put, sys_put, Arch.put, l]
    · simp only [bg, fn, ls30_put]
    · show ((BitVec.setWidth 8 ((~~~s2.L + s2.R + 1#32) >>> 31) ||| s2.F <<< 1) &&& 15#8 == 0#8) = _
      rw [sub_eq, l, r, f]; exact sign_f _
    · show (1920 ||| 2 * s2.St.s3.toNat) / 4 * 4 ||| 2 * s2.St.s3.toNat +
        (BitVec.msb (carriesOf (~~~s2.L) s2.R (~~~s2.L + s2.R + 1#32)) ^^
          BitVec.getMsbD (carriesOf (~~~s2.L) s2.R (~~~s2.L + s2.R + 1#32)) 1).toNat = _
      rw [ovf_sub, h3, l, r]
      cases bxh <;> cases decide (fits (c.toInt - v.toInt)) <;> rfl
  clear hc h fn md f l r hr hm h3
  rintro s3 ⟨h, f, hm, hr⟩
  have hcb := cmp_bits c v
  have ha' : ∀ b : Bool, b = (bxh == decide (c.toInt < v.toInt)) →
      a' = if b then (a.put (dig1 i) v).jump m else a.put (dig1 i) v := by
    intro b hb
    rw [ha, hb]
    simp only [beq_iff_eq]
  have hup : ∀ {s' : S} , Calm e tk s' → archOf s' = archOf s3 → s'.F = s3.F → s'.IVA = s3.IVA →
      s'.REFETCH = s3.REFETCH → s'.LS 30 = s3.LS 30 → s'.SYLS1 = s3.SYLS1 →
      AtEnd e tk (a.put (dig1 i) v) s' := fun hc h1 h2 h3 h4 h5 h6 =>
    h.upd hc (h1.trans h.arch) rfl rfl h2 h3 h4 h5 h6
  rw [← hcb] at ha'
  generalize decide (fits (c.toInt - v.toInt)) = fo at *
  generalize (c - v).msb = sg at *
  subst hm
  cases bxh <;> cases fo
  · refine Ev.plain (n := 0x781) ho h.calm hr (by rw [w781]; decide) (fun t => x781 e _ _)
      (fun t => by unfold memPart; rfl) fun t ht hc => ?_
    refine bx_end ho (hup hc rfl rfl rfl rfl rfl rfl) hi (b := sg) (ha' _ (by cases sg <;> rfl)) (.inr ?_)
    show 1812 ||| 2 * (s3.F == 0#8).toNat + 1 = _
    rw [f]; cases sg <;> rfl
  · refine Ev.plain (n := 0x780) ho h.calm hr (by rw [w780]; decide) (fun t => x780 e _ _)
      (fun t => by unfold memPart; rfl) fun t ht hc => ?_
    refine bx_end ho (hup hc rfl rfl rfl rfl rfl rfl) hi (b := !sg) (ha' _ (by cases sg <;> rfl)) (.inl ?_)
    show 1808 ||| 2 * (s3.F == 0#8).toNat + 1 = _
    rw [f]; cases sg <;> rfl
  · refine Ev.plain (n := 0x783) ho h.calm hr (by rw [w783]; decide) (fun t => x783 e _ _)
      (fun t => by unfold memPart; rfl) fun t ht hc => ?_
    refine bx_end ho (hup hc rfl rfl rfl rfl rfl rfl) hi (b := !sg) (ha' _ (by cases sg <;> rfl)) (.inl ?_)
    show 1808 ||| 2 * (s3.F == 0#8).toNat + 1 = _
    rw [f]; cases sg <;> rfl
  · refine Ev.plain (n := 0x782) ho h.calm hr (by rw [w782]; decide) (fun t => x782 e _ _)
      (fun t => by unfold memPart; rfl) fun t ht hc => ?_
    refine bx_end ho (hup hc rfl rfl rfl rfl rfl rfl) hi (b := sg) (ha' _ (by cases sg <;> rfl)) (.inr ?_)
    show 1812 ||| 2 * (s3.F == 0#8).toNat + 1 = _
    rw [f]; cases sg <;> rfl

/-! ### Logical shifts of one register -/

theorem lo_lt (x : W) : (loDig x).toNat < 16 := by
  show ((x &&& 15#32).setWidth 8).toNat < 16
  rw [BitVec.toNat_setWidth, BitVec.toNat_and]
  have : x.toNat &&& (15#32).toNat ≤ 15 := Nat.and_le_right
  omega

theorem hi_lt (x : W) : (hiDig x).toNat < 16 := by
  show ((x >>> 28).setWidth 8).toNat < 16
  rw [BitVec.toNat_setWidth, BitVec.toNat_ushiftRight, Nat.shiftRight_eq_div_pow]
  have := x.isLt
  omega

theorem undo_srl (v : W) : v >>> 4 <<< 4 ||| BitVec.setWidth 32 (loDig v) &&& 15#32 = v := by
  apply BitVec.eq_of_getLsbD_eq
  intro i hi
  unfold loDig
  interval_cases i <;> simp

theorem undo_sll (v : W) :
    v <<< 4 >>> 4 ||| (BitVec.setWidth 32 (hiDig v) &&& 15#32) <<< 28 = v := by
  apply BitVec.eq_of_getLsbD_eq
  intro i hi
  unfold hiDig
  interval_cases i <;> simp

/-- The shift amount is in `R`: the words take its last two bits and the four before them. -/
theorem amount (v x : W) (h : v &&& 16777215#32 = x) :
    (v.setWidth 2).toNat + 4 * ((v >>> 1 >>> 1).setWidth 8 &&& 15#8).toNat = x.toNat % 64 := by
  have h1 : (v.setWidth 2).toNat = v.toNat % 4 := by rw [BitVec.toNat_setWidth]
  have h2 : ((v >>> 1 >>> 1).setWidth 8 &&& 15#8).toNat = v.toNat / 4 % 16 := by
    rw [BitVec.toNat_and, show (15#8).toNat = 2 ^ 4 - 1 from rfl, Nat.and_two_pow_sub_one_eq_mod,
      BitVec.toNat_setWidth, BitVec.toNat_ushiftRight, BitVec.toNat_ushiftRight,
      Nat.shiftRight_eq_div_pow, Nat.shiftRight_eq_div_pow]
    omega
  have h3 : x.toNat = v.toNat % 2 ^ 24 := by
    rw [← h, BitVec.toNat_and, show (16777215#32).toNat = 2 ^ 24 - 1 from rfl,
      Nat.and_two_pow_sub_one_eq_mod]
  omega

theorem low2_pred (k : BitVec 2) (n : Nat) (h : k.toNat = n + 1) : (k - 1#2).toNat = n := by
  have := k.isLt
  rw [BitVec.toNat_sub]
  have : (1#2).toNat = 1 := rfl
  omega

theorem g_pred (k : BitVec 8) (n : Nat) (h : k.toNat = n + 1) : (k - 1#8).toNat = n := by
  have := k.isLt
  rw [BitVec.toNat_sub]
  have : (1#8).toNat = 1 := rfl
  omega

theorem beq0 {w : Nat} (k : BitVec w) : (k == 0#w) = decide (k.toNat = 0) := by
  by_cases h : k = 0#w
  · subst h; simp
  · have : ¬ k.toNat = 0 := fun h1 => h (BitVec.eq_of_toNat_eq (by simpa using h1))
    simp [h, this]

/-- Right shift by four, at word `7ad`, until `G` is used up. -/
theorem srl_four {e : Env} {tk : Bool} {a : Arch} {r : BitVec 4} (ho : EnvOk e) (hi : InStore e a)
    (n : Nat) : ∀ {s : S}, AtEnd e tk a s → s.FN = 3#2 → s.MD = r → s.MB = 0#2 → s.G.toNat = n →
      s.ROAR = 0x7ad → Ev e tk (Bd e tk (a.put r (s.R >>> (4 * n)))) s := by
  induction n with
  | zero =>
    intro s h fn md mb hg hr
    refine Ev.plain (n := 0x7ad) ho h.calm hr (by rw [w7ad]; decide) (fun t => x7ad e _ _)
      (fun t => by unfold memPart; rfl) fun t ht hc => ?_
    refine Ev.bind (P := fun s' => AtEnd e tk a s' ∧ s'.FN = 3#2 ∧ s'.MD = r ∧
      s'.R = s.R >>> 4 ∧ s'.F = loDig s.R ∧ s'.L = s'.LS 30 ∧ s'.ROAR = 0x7af) (.now ?_) ?_
    · refine ⟨h.updF hc h.arch rfl rfl (lo_lt _) rfl rfl rfl rfl, fn, md, rfl, rfl, rfl, ?_⟩
      show 1964 ||| 2 * (s.G == 0#8 || s.MB == 3#2).toNat + 1 = _
      rw [beq0, hg, decide_eq_true rfl, Bool.true_or]; rfl
    · generalize s.R = v at *
      clear h fn md mb hg hr hc
      rintro s2 ⟨h, fn, md, hR, hF, hL, hr⟩
      refine Ev.wait (n := 0x7af) ho h.calm hr (by rw [w7af]; decide) (by rw [w7af]; decide)
        (fun tu sa ex => x7af e _ _) fun tu sa ex hex hc => .now ?_
      refine end_c0 ho (hi.same (show (a.put r _).ia = a.ia from rfl)) hex hc.qt rfl ?_ ?_ h.odd hL
        h.calm.ib ?_ (hi_lt _) rfl rfl rfl rfl
      · obtain rfl := h.arch
        simp only [archOf, fn, md, gr_put, fr_put, sys_put, Arch.put, hR, hF, undo_srl]
        simp
      · show s2.IA = a.ia
        rw [← h.arch]; rfl
      · intro h7
        replace h7 : s2.updD = true := h7
        rw [h.calm.ud] at h7; cases h7
  | succ n ih =>
    intro s h fn md mb hg hr
    refine Ev.plain (n := 0x7ad) ho h.calm hr (by rw [w7ad]; decide) (fun t => x7ad e _ _)
      (fun t => by unfold memPart; rfl) fun t ht hc => ?_
    refine Ev.bind (P := fun s' => AtEnd e tk a s' ∧ s'.FN = 3#2 ∧ s'.MD = r ∧ s'.MB = 0#2 ∧
      s'.G.toNat = n ∧ s'.R = s.R >>> 4 ∧ s'.ROAR = 0x7ad) (.now ?_) ?_
    · refine ⟨h.updF hc h.arch rfl rfl (lo_lt _) rfl rfl rfl rfl, fn, md, mb, g_pred _ _ hg, rfl, ?_⟩
      show 1964 ||| 2 * (s.G == 0#8 || s.MB == 3#2).toNat + 1 = _
      rw [beq0, hg, mb, decide_eq_false (Nat.succ_ne_zero n)]; rfl
    · rintro s2 ⟨h2, fn2, md2, mb2, hg2, hR, hr2⟩
      have h3 := ih h2 fn2 md2 mb2 hg2 hr2
      rw [hR, show s.R >>> 4 >>> (4 * n) = s.R >>> (4 * (n + 1)) by
        rw [← BitVec.shiftRight_add]; congr 1; omega] at h3
      exact h3

/-- Right shift by one, at word `7ac`, until `LB` is used up. -/
theorem srl_one {e : Env} {tk : Bool} {a : Arch} {r : BitVec 4} (ho : EnvOk e) (hi : InStore e a)
    (g n : Nat) : ∀ {s : S}, AtEnd e tk a s → s.FN = 3#2 → s.MD = r → s.MB = 0#2 → s.G.toNat = g →
      s.LB.toNat = n → s.ROAR = 0x7ac →
      Ev e tk (Bd e tk (a.put r (s.R >>> (n + 1 + 4 * g)))) s := by
  induction n with
  | zero =>
    intro s h fn md mb hg hl hr
    refine Ev.plain (n := 0x7ac) ho h.calm hr (by rw [w7ac]; decide) (fun t => x7ac e _ _)
      (fun t => by unfold memPart; rfl) fun t ht hc => ?_
    refine Ev.bind (P := fun s' => AtEnd e tk a s' ∧ s'.FN = 3#2 ∧ s'.MD = r ∧ s'.MB = 0#2 ∧
      s'.G.toNat = g ∧ s'.R = s.R >>> 1 ∧ s'.ROAR = 0x7ad) (.now ?_) ?_
    · refine ⟨h.upd hc h.arch rfl rfl rfl rfl rfl rfl rfl, fn, md, mb, hg, rfl, ?_⟩
      show 1964 ||| (s.LB == 0#2).toNat = _
      rw [beq0, hl]; rfl
    · rintro s2 ⟨h2, fn2, md2, mb2, hg2, hR, hr2⟩
      have h3 := srl_four ho hi g h2 fn2 md2 mb2 hg2 hr2
      rw [hR, show s.R >>> 1 >>> (4 * g) = s.R >>> (0 + 1 + 4 * g) by
        rw [← BitVec.shiftRight_add]] at h3
      exact h3
  | succ n ih =>
    intro s h fn md mb hg hl hr
    refine Ev.plain (n := 0x7ac) ho h.calm hr (by rw [w7ac]; decide) (fun t => x7ac e _ _)
      (fun t => by unfold memPart; rfl) fun t ht hc => ?_
    refine Ev.bind (P := fun s' => AtEnd e tk a s' ∧ s'.FN = 3#2 ∧ s'.MD = r ∧ s'.MB = 0#2 ∧
      s'.G.toNat = g ∧ s'.LB.toNat = n ∧ s'.R = s.R >>> 1 ∧ s'.ROAR = 0x7ac) (.now ?_) ?_
    · refine ⟨h.upd hc h.arch rfl rfl rfl rfl rfl rfl rfl, fn, md, mb, hg, low2_pred _ _ hl, rfl, ?_⟩
      show 1964 ||| (s.LB == 0#2).toNat = _
      rw [beq0, hl, decide_eq_false (Nat.succ_ne_zero n)]; rfl
    · rintro s2 ⟨h2, fn2, md2, mb2, hg2, hl2, hR, hr2⟩
      have h3 := ih h2 fn2 md2 mb2 hg2 hl2 hr2
      rw [hR, show s.R >>> 1 >>> (n + 1 + 4 * g) = s.R >>> (n + 1 + 1 + 4 * g) by
        rw [← BitVec.shiftRight_add]; congr 1; omega] at h3
      exact h3

/-- SRL. -/
theorem srl_exec {e : Env} {tk : Bool} {a : Arch} {i : BitVec 16} {x : W} {s : S} (ho : EnvOk e)
    (h : Op8 e tk a i x s) (hop : (opOf i).toNat = 0x88) (hi : InStore e a) :
    Ev e tk (Bd e tk (a.put (dig1 i) (a.gr (dig1 i) >>> (x.toNat % 64)))) s := by
  have hro := h.roar
  rw [hop] at hro
  have hx := amount _ _ h.r
  rw [← h.l]
  refine Ev.plain (n := 0x722) ho h.ae.calm hro (by rw [w722]; decide) (fun t => x722 e _ _)
    (fun t => by unfold memPart; rfl) fun t ht hc => ?_
  refine Ev.bind (P := fun s' => AtEnd e tk a s' ∧ s'.FN = 3#2 ∧ s'.MD = dig1 i ∧ s'.MB = 0#2 ∧
    s'.L = s.L ∧ s'.R = s.R >>> 1 ∧ s'.LB = s.R.setWidth 2 ∧ s'.ROAR = 0x7ae) (.now ?_) ?_
  · exact ⟨h.ae.upd hc h.ae.arch rfl rfl rfl rfl rfl rfl rfl, h.fn, h.md, rfl, rfl, rfl, rfl, rfl⟩
  generalize s.L = v at *
  generalize s.R = m at *
  clear h hro hc
  rintro s2 ⟨h, fn, md, mb, l, r, lb, hr⟩
  refine Ev.plain (n := 0x7ae) ho h.calm hr (by rw [w7ae]; decide) (fun t => x7ae e _ _)
    (fun t => by unfold memPart; rfl) fun t ht hc => ?_
  refine Ev.bind (P := fun s' => AtEnd e tk a s' ∧ s'.FN = 3#2 ∧ s'.MD = dig1 i ∧ s'.MB = 0#2 ∧
    s'.L = v ∧ s'.R = m >>> 1 >>> 1 ∧ s'.LB = m.setWidth 2 - 1#2 ∧
    s'.ROAR = if (m.setWidth 2).toNat = 0 then 0x7b1 else 0x7b0) (.now ?_) ?_
  · refine ⟨h.upd hc h.arch rfl rfl rfl rfl rfl rfl rfl, fn, md, mb, l, ?_, ?_, ?_⟩
    · simp only [bg, r]
    · simp only [bg, lb]
    · show 1968 ||| (s2.LB == 0#2).toNat = _
      rw [lb, beq0]
      by_cases h0 : (m.setWidth 2).toNat = 0
      · rw [if_pos h0, decide_eq_true h0]; rfl
      · rw [if_neg h0, decide_eq_false h0]; rfl
  clear h fn md mb l r lb hr hc
  rintro s3 ⟨h, fn, md, mb, l, r, lb, hr⟩
  by_cases h0 : (m.setWidth 2).toNat = 0
  · rw [if_pos h0] at hr
    refine Ev.plain (n := 0x7b1) ho h.calm hr (by rw [w7b1]; decide) (fun t => x7b1 e _ _)
      (fun t => by unfold memPart; rfl) fun t ht hc => ?_
    refine Ev.bind (P := fun s' => AtEnd e tk a s' ∧ s'.FN = 3#2 ∧ s'.MD = dig1 i ∧ s'.MB = 0#2 ∧
      s'.G = ((m >>> 1 >>> 1).setWidth 8 &&& 15#8) ∧ s'.R = v ∧ s'.ROAR = 0x7ad) (.now ?_) ?_
    · refine ⟨h.upd hc h.arch rfl rfl rfl rfl rfl rfl rfl, fn, md, mb, ?_, l, rfl⟩
      simp only [bg, r]
    · rintro s4 ⟨h4, fn4, md4, mb4, hg, hv, hr4⟩
      have h5 := srl_four ho hi _ h4 fn4 md4 mb4 (congrArg BitVec.toNat hg) hr4
      rw [hv, show 4 * ((m >>> 1 >>> 1).setWidth 8 &&& 15#8).toNat = x.toNat % 64 by omega] at h5
      exact h5
  · rw [if_neg h0] at hr
    obtain ⟨n, hn⟩ : ∃ n, (m.setWidth 2).toNat = n + 1 := ⟨_, (Nat.succ_pred h0).symm⟩
    have hn1 := low2_pred _ _ hn
    refine Ev.plain (n := 0x7b0) ho h.calm hr (by rw [w7b0]; decide) (fun t => x7b0 e _ _)
      (fun t => by unfold memPart; rfl) fun t ht hc => ?_
    refine Ev.bind (P := fun s' => AtEnd e tk a s' ∧ s'.FN = 3#2 ∧ s'.MD = dig1 i ∧ s'.MB = 0#2 ∧
      s'.G = ((m >>> 1 >>> 1).setWidth 8 &&& 15#8) ∧ s'.R = v >>> 1 ∧ s'.LB = m.setWidth 2 - 1#2 - 1#2 ∧
      s'.ROAR = if n = 0 then 0x7ad else 0x7ac) (.now ?_) ?_
    · refine ⟨h.upd hc h.arch rfl rfl rfl rfl rfl rfl rfl, fn, md, mb, ?_, ?_, ?_, ?_⟩
      · simp only [bg, r]
      · simp only [bg, l]
      · simp only [bg, lb]
      · show 1964 ||| (s3.LB == 0#2).toNat = _
        rw [lb, beq0, hn1]
        by_cases h1 : n = 0
        · rw [if_pos h1, decide_eq_true h1]; rfl
        · rw [if_neg h1, decide_eq_false h1]; rfl
    · rintro s4 ⟨h4, fn4, md4, mb4, hg, hv, hlb, hr4⟩
      by_cases h1 : n = 0
      · rw [if_pos h1] at hr4
        have h5 := srl_four ho hi _ h4 fn4 md4 mb4 (congrArg BitVec.toNat hg) hr4
        rw [hv, ← BitVec.shiftRight_add,
          show 1 + 4 * ((m >>> 1 >>> 1).setWidth 8 &&& 15#8).toNat = x.toNat % 64 by omega] at h5
        exact h5
      · rw [if_neg h1] at hr4
        obtain ⟨k, rfl⟩ : ∃ k, n = k + 1 := ⟨_, (Nat.succ_pred h1).symm⟩
        have h5 := srl_one ho hi _ k h4 fn4 md4 mb4 (congrArg BitVec.toNat hg)
          (by rw [hlb]; exact low2_pred _ _ hn1) hr4
        rw [hv, ← BitVec.shiftRight_add,
          show 1 + (k + 1 + 4 * ((m >>> 1 >>> 1).setWidth 8 &&& 15#8).toNat) = x.toNat % 64 by
            omega] at h5
        exact h5

/-- Left shift by four, at word `8d1`, until `G` is used up. -/
theorem sll_four {e : Env} {tk : Bool} {a : Arch} {r : BitVec 4} (ho : EnvOk e) (hi : InStore e a)
    (n : Nat) : ∀ {s : S}, AtEnd e tk a s → s.FN = 3#2 → s.MD = r → s.MB = 0#2 → s.G.toNat = n →
      s.ROAR = 0x8d1 → Ev e tk (Bd e tk (a.put r (s.R <<< (4 * n)))) s := by
  induction n with
  | zero =>
    intro s h fn md mb hg hr
    refine Ev.plain (n := 0x8d1) ho h.calm hr (by rw [w8d1]; decide) (fun t => x8d1 e _ _)
      (fun t => by unfold memPart; rfl) fun t ht hc => ?_
    refine Ev.bind (P := fun s' => AtEnd e tk a s' ∧ s'.FN = 3#2 ∧ s'.MD = r ∧
      s'.R = s.R <<< 4 ∧ s'.F = hiDig s.R ∧ s'.L = s'.LS 30 ∧ s'.ROAR = 0x8d3) (.now ?_) ?_
    · refine ⟨h.updF hc h.arch rfl rfl (hi_lt _) rfl rfl rfl rfl, fn, md, rfl, rfl, rfl, ?_⟩
      show 2256 ||| 2 * (s.G == 0#8 || s.MB == 3#2).toNat + 1 = _
      rw [beq0, hg, decide_eq_true rfl, Bool.true_or]; rfl
    · generalize s.R = v at *
      clear h fn md mb hg hr hc
      rintro s2 ⟨h, fn, md, hR, hF, hL, hr⟩
      refine Ev.wait (n := 0x8d3) ho h.calm hr (by rw [w8d3]; decide) (by rw [w8d3]; decide)
        (fun tu sa ex => x8d3 e _ _) fun tu sa ex hex hc => .now ?_
      refine end_c0 ho (hi.same (show (a.put r _).ia = a.ia from rfl)) hex hc.qt rfl ?_ ?_ h.odd hL
        h.calm.ib ?_ (lo_lt _) rfl rfl rfl rfl
      · obtain rfl := h.arch
        simp only [archOf, fn, md, gr_put, fr_put, sys_put, Arch.put, hR, hF, undo_sll]
        simp
      · show s2.IA = a.ia
        rw [← h.arch]; rfl
      · intro h7
        replace h7 : s2.updD = true := h7
        rw [h.calm.ud] at h7; cases h7
  | succ n ih =>
    intro s h fn md mb hg hr
    refine Ev.plain (n := 0x8d1) ho h.calm hr (by rw [w8d1]; decide) (fun t => x8d1 e _ _)
      (fun t => by unfold memPart; rfl) fun t ht hc => ?_
    refine Ev.bind (P := fun s' => AtEnd e tk a s' ∧ s'.FN = 3#2 ∧ s'.MD = r ∧ s'.MB = 0#2 ∧
      s'.G.toNat = n ∧ s'.R = s.R <<< 4 ∧ s'.ROAR = 0x8d1) (.now ?_) ?_
    · refine ⟨h.updF hc h.arch rfl rfl (hi_lt _) rfl rfl rfl rfl, fn, md, mb, g_pred _ _ hg, rfl, ?_⟩
      show 2256 ||| 2 * (s.G == 0#8 || s.MB == 3#2).toNat + 1 = _
      rw [beq0, hg, mb, decide_eq_false (Nat.succ_ne_zero n)]; rfl
    · rintro s2 ⟨h2, fn2, md2, mb2, hg2, hR, hr2⟩
      have h3 := ih h2 fn2 md2 mb2 hg2 hr2
      rw [hR, show s.R <<< 4 <<< (4 * n) = s.R <<< (4 * (n + 1)) by
        rw [← BitVec.shiftLeft_add]; congr 1; omega] at h3
      exact h3

/-- Left shift by one, at word `8d0`, until `LB` is used up. -/
theorem sll_one {e : Env} {tk : Bool} {a : Arch} {r : BitVec 4} (ho : EnvOk e) (hi : InStore e a)
    (g n : Nat) : ∀ {s : S}, AtEnd e tk a s → s.FN = 3#2 → s.MD = r → s.MB = 0#2 → s.G.toNat = g →
      s.LB.toNat = n → s.ROAR = 0x8d0 →
      Ev e tk (Bd e tk (a.put r (s.R <<< (n + 1 + 4 * g)))) s := by
  induction n with
  | zero =>
    intro s h fn md mb hg hl hr
    refine Ev.plain (n := 0x8d0) ho h.calm hr (by rw [w8d0]; decide) (fun t => x8d0 e _ _)
      (fun t => by unfold memPart; rfl) fun t ht hc => ?_
    refine Ev.bind (P := fun s' => AtEnd e tk a s' ∧ s'.FN = 3#2 ∧ s'.MD = r ∧ s'.MB = 0#2 ∧
      s'.G.toNat = g ∧ s'.R = s.R <<< 1 ∧ s'.ROAR = 0x8d1) (.now ?_) ?_
    · refine ⟨h.upd hc h.arch rfl rfl rfl rfl rfl rfl rfl, fn, md, mb, hg, rfl, ?_⟩
      show 2256 ||| (s.LB == 0#2).toNat = _
      rw [beq0, hl]; rfl
    · rintro s2 ⟨h2, fn2, md2, mb2, hg2, hR, hr2⟩
      have h3 := sll_four ho hi g h2 fn2 md2 mb2 hg2 hr2
      rw [hR, show s.R <<< 1 <<< (4 * g) = s.R <<< (0 + 1 + 4 * g) by
        rw [← BitVec.shiftLeft_add]] at h3
      exact h3
  | succ n ih =>
    intro s h fn md mb hg hl hr
    refine Ev.plain (n := 0x8d0) ho h.calm hr (by rw [w8d0]; decide) (fun t => x8d0 e _ _)
      (fun t => by unfold memPart; rfl) fun t ht hc => ?_
    refine Ev.bind (P := fun s' => AtEnd e tk a s' ∧ s'.FN = 3#2 ∧ s'.MD = r ∧ s'.MB = 0#2 ∧
      s'.G.toNat = g ∧ s'.LB.toNat = n ∧ s'.R = s.R <<< 1 ∧ s'.ROAR = 0x8d0) (.now ?_) ?_
    · refine ⟨h.upd hc h.arch rfl rfl rfl rfl rfl rfl rfl, fn, md, mb, hg, low2_pred _ _ hl, rfl, ?_⟩
      show 2256 ||| (s.LB == 0#2).toNat = _
      rw [beq0, hl, decide_eq_false (Nat.succ_ne_zero n)]; rfl
    · rintro s2 ⟨h2, fn2, md2, mb2, hg2, hl2, hR, hr2⟩
      have h3 := ih h2 fn2 md2 mb2 hg2 hl2 hr2
      rw [hR, show s.R <<< 1 <<< (n + 1 + 4 * g) = s.R <<< (n + 1 + 1 + 4 * g) by
        rw [← BitVec.shiftLeft_add]; congr 1; omega] at h3
      exact h3

/-- SLL. -/
theorem sll_exec {e : Env} {tk : Bool} {a : Arch} {i : BitVec 16} {x : W} {s : S} (ho : EnvOk e)
    (h : Op8 e tk a i x s) (hop : (opOf i).toNat = 0x89) (hi : InStore e a) :
    Ev e tk (Bd e tk (a.put (dig1 i) (a.gr (dig1 i) <<< (x.toNat % 64)))) s := by
  have hro := h.roar
  rw [hop] at hro
  have hx := amount _ _ h.r
  rw [← h.l]
  refine Ev.plain (n := 0x726) ho h.ae.calm hro (by rw [w726]; decide) (fun t => x726 e _ _)
    (fun t => by unfold memPart; rfl) fun t ht hc => ?_
  refine Ev.bind (P := fun s' => AtEnd e tk a s' ∧ s'.FN = 3#2 ∧ s'.MD = dig1 i ∧ s'.MB = 0#2 ∧
    s'.L = s.L ∧ s'.R = s.R >>> 1 ∧ s'.LB = s.R.setWidth 2 ∧ s'.ROAR = 0x8d2) (.now ?_) ?_
  · exact ⟨h.ae.upd hc h.ae.arch rfl rfl rfl rfl rfl rfl rfl, h.fn, h.md, rfl, rfl, rfl, rfl, rfl⟩
  generalize s.L = v at *
  generalize s.R = m at *
  clear h hro hc
  rintro s2 ⟨h, fn, md, mb, l, r, lb, hr⟩
  refine Ev.plain (n := 0x8d2) ho h.calm hr (by rw [w8d2]; decide) (fun t => x8d2 e _ _)
    (fun t => by unfold memPart; rfl) fun t ht hc => ?_
  refine Ev.bind (P := fun s' => AtEnd e tk a s' ∧ s'.FN = 3#2 ∧ s'.MD = dig1 i ∧ s'.MB = 0#2 ∧
    s'.L = v ∧ s'.R = m >>> 1 >>> 1 ∧ s'.LB = m.setWidth 2 - 1#2 ∧
    s'.ROAR = if (m.setWidth 2).toNat = 0 then 0x8d5 else 0x8d4) (.now ?_) ?_
  · refine ⟨h.upd hc h.arch rfl rfl rfl rfl rfl rfl rfl, fn, md, mb, l, ?_, ?_, ?_⟩
    · simp only [bg, r]
    · simp only [bg, lb]
    · show 2260 ||| (s2.LB == 0#2).toNat = _
      rw [lb, beq0]
      by_cases h0 : (m.setWidth 2).toNat = 0
      · rw [if_pos h0, decide_eq_true h0]; rfl
      · rw [if_neg h0, decide_eq_false h0]; rfl
  clear h fn md mb l r lb hr hc
  rintro s3 ⟨h, fn, md, mb, l, r, lb, hr⟩
  by_cases h0 : (m.setWidth 2).toNat = 0
  · rw [if_pos h0] at hr
    refine Ev.plain (n := 0x8d5) ho h.calm hr (by rw [w8d5]; decide) (fun t => x8d5 e _ _)
      (fun t => by unfold memPart; rfl) fun t ht hc => ?_
    refine Ev.bind (P := fun s' => AtEnd e tk a s' ∧ s'.FN = 3#2 ∧ s'.MD = dig1 i ∧ s'.MB = 0#2 ∧
      s'.G = ((m >>> 1 >>> 1).setWidth 8 &&& 15#8) ∧ s'.R = v ∧ s'.ROAR = 0x8d1) (.now ?_) ?_
    · refine ⟨h.upd hc h.arch rfl rfl rfl rfl rfl rfl rfl, fn, md, mb, ?_, l, rfl⟩
      simp only [bg, r]
    · rintro s4 ⟨h4, fn4, md4, mb4, hg, hv, hr4⟩
      have h5 := sll_four ho hi _ h4 fn4 md4 mb4 (congrArg BitVec.toNat hg) hr4
      rw [hv, show 4 * ((m >>> 1 >>> 1).setWidth 8 &&& 15#8).toNat = x.toNat % 64 by omega] at h5
      exact h5
  · rw [if_neg h0] at hr
    obtain ⟨n, hn⟩ : ∃ n, (m.setWidth 2).toNat = n + 1 := ⟨_, (Nat.succ_pred h0).symm⟩
    have hn1 := low2_pred _ _ hn
    refine Ev.plain (n := 0x8d4) ho h.calm hr (by rw [w8d4]; decide) (fun t => x8d4 e _ _)
      (fun t => by unfold memPart; rfl) fun t ht hc => ?_
    refine Ev.bind (P := fun s' => AtEnd e tk a s' ∧ s'.FN = 3#2 ∧ s'.MD = dig1 i ∧ s'.MB = 0#2 ∧
      s'.G = ((m >>> 1 >>> 1).setWidth 8 &&& 15#8) ∧ s'.R = v <<< 1 ∧ s'.LB = m.setWidth 2 - 1#2 - 1#2 ∧
      s'.ROAR = if n = 0 then 0x8d1 else 0x8d0) (.now ?_) ?_
    · refine ⟨h.upd hc h.arch rfl rfl rfl rfl rfl rfl rfl, fn, md, mb, ?_, ?_, ?_, ?_⟩
      · simp only [bg, r]
      · simp only [bg, l]
      · simp only [bg, lb]
      · show 2256 ||| (s3.LB == 0#2).toNat = _
        rw [lb, beq0, hn1]
        by_cases h1 : n = 0
        · rw [if_pos h1, decide_eq_true h1]; rfl
        · rw [if_neg h1, decide_eq_false h1]; rfl
    · rintro s4 ⟨h4, fn4, md4, mb4, hg, hv, hlb, hr4⟩
      by_cases h1 : n = 0
      · rw [if_pos h1] at hr4
        have h5 := sll_four ho hi _ h4 fn4 md4 mb4 (congrArg BitVec.toNat hg) hr4
        rw [hv, ← BitVec.shiftLeft_add,
          show 1 + 4 * ((m >>> 1 >>> 1).setWidth 8 &&& 15#8).toNat = x.toNat % 64 by omega] at h5
        exact h5
      · rw [if_neg h1] at hr4
        obtain ⟨k, rfl⟩ : ∃ k, n = k + 1 := ⟨_, (Nat.succ_pred h1).symm⟩
        have h5 := sll_one ho hi _ k h4 fn4 md4 mb4 (congrArg BitVec.toNat hg)
          (by rw [hlb]; exact low2_pred _ _ hn1) hr4
        rw [hv, ← BitVec.shiftLeft_add,
          show 1 + (k + 1 + 4 * ((m >>> 1 >>> 1).setWidth 8 &&& 15#8).toNat) = x.toNat % 64 by
            omega] at h5
        exact h5

end Verif.Cpu50
