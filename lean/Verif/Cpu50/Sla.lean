import Verif.Cpu50.Words15
import Verif.Cpu50.OpCheck

/-!
# Model 2050: arithmetic shift left (C167)
-/

namespace Verif

/-- Specification. SHIFT LEFT SINGLE by `n` places: the number in register `r` is multiplied by `2 ^ n`. If the
product is no number of 32 bits, the register gets the sign and the low 31 bits of the product, and the condition
code is 3. -/
def S360.Arch.shiftLeft (a : S360.Arch) (r : BitVec 4) (n : Nat) : S360.Arch :=
  if -2 ^ 31 ≤ (a.gr r).toInt * 2 ^ n ∧ (a.gr r).toInt * 2 ^ n < 2 ^ 31 then
    (a.put r (BitVec.ofInt 32 ((a.gr r).toInt * 2 ^ n))).setCC (S360.ccSign ((a.gr r).toInt * 2 ^ n))
  else
    (a.put r ((a.gr r).extractLsb' 31 1 ++ (BitVec.ofInt 32 ((a.gr r).toInt * 2 ^ n)).extractLsb' 0 31)).setCC 3

namespace Cpu50

open Verif.S360
attribute [local irreducible] ros

/-- The magnitude of a number. -/
def magOf (v : W) : W := if v.msb then ~~~v + 1#32 else v

/-! ### Bits lost on the left -/

theorem shl_nat (v : W) (d : Nat) : (v <<< d).toNat = v.toNat * 2 ^ d % 2 ^ 32 := by
  rw [BitVec.toNat_shiftLeft, Nat.shiftLeft_eq]

theorem hiDig_zero (v : W) : (hiDig v &&& 15#8 = 0#8) ↔ v.toNat < 2 ^ 28 := by
  have h1 : (hiDig v).toNat = v.toNat / 2 ^ 28 := by
    unfold hiDig
    rw [BitVec.toNat_setWidth, BitVec.toNat_ushiftRight, Nat.shiftRight_eq_div_pow]
    have := v.isLt
    omega
  have h2 : (hiDig v &&& 15#8).toNat = v.toNat / 2 ^ 28 := by
    rw [BitVec.toNat_and, show (15#8).toNat = 2 ^ 4 - 1 from rfl, Nat.and_two_pow_sub_one_eq_mod, h1]
    have := v.isLt
    omega
  constructor
  · intro h
    rw [h] at h2
    have : (0#8).toNat = 0 := rfl
    omega
  · intro h
    apply BitVec.eq_of_toNat_eq
    rw [h2]
    have : (0#8).toNat = 0 := rfl
    omega

theorem or15 (b f : B) : ((b ||| f) &&& 15#8 = 0#8) ↔ (b &&& 15#8 = 0#8 ∧ f &&& 15#8 = 0#8) := by
  have key : ∀ x y : BitVec 4, (x ||| y = 0#4) ↔ (x = 0#4 ∧ y = 0#4) := by decide
  have h : ∀ b : B, (b &&& 15#8 = 0#8) ↔ b.setWidth 4 = 0#4 := by decide +kernel
  rw [h, h, h, BitVec.setWidth_or]
  exact key _ _

theorem lost4 (m : W) (d : Nat) (b f : B) (h : ((b ||| f) &&& 15#8 = 0#8) ↔ m.toNat * 2 ^ d < 2 ^ 32)
    (c : B) (hc : c &&& 15#8 = (b ||| f) &&& 15#8) :
    ((c ||| hiDig (m <<< d)) &&& 15#8 = 0#8) ↔ m.toNat * 2 ^ (d + 4) < 2 ^ 32 := by
  rw [or15, hc, h, hiDig_zero, shl_nat, Nat.pow_add, ← Nat.mul_assoc]
  generalize m.toNat * 2 ^ d = X
  omega

theorem mover_or (b f : B) (md : BitVec 4) :
    (b &&& 240#8 ||| mvfR 1#3 (BitVec.setWidth 8 md <<< 4 ||| f) b) &&& 15#8 = (b ||| f) &&& 15#8 := by
  show (b &&& 240#8 ||| ((b ||| (BitVec.setWidth 8 md <<< 4 ||| f)) &&& 15#8)) &&& 15#8 = _
  apply BitVec.eq_of_getLsbD_eq; intro i hi
  interval_cases i <;> simp

theorem lost1 (m : W) (d : Nat) (f : B) (h : f.toNat = m.toNat * 2 ^ d / 2 ^ 32) (hd : f.toNat < 4) :
    ((BitVec.setWidth 8 ((m <<< d) >>> 31) ||| f <<< 1) &&& 15#8).toNat = m.toNat * 2 ^ (d + 1) / 2 ^ 32 := by
  have h1 : (BitVec.setWidth 8 ((m <<< d) >>> 31)).toNat = m.toNat * 2 ^ d % 2 ^ 32 / 2 ^ 31 := by
    rw [BitVec.toNat_setWidth, BitVec.toNat_ushiftRight, Nat.shiftRight_eq_div_pow, shl_nat]
    omega
  have key : ∀ x f : BitVec 2, x.toNat < 2 →
      ((BitVec.setWidth 8 x ||| BitVec.setWidth 8 f <<< 1) &&& 15#8).toNat = 2 * f.toNat + x.toNat := by decide
  have h2 : BitVec.setWidth 8 ((m <<< d) >>> 31) = BitVec.setWidth 8 (BitVec.setWidth 2 (BitVec.setWidth 8 ((m <<< d) >>> 31))) := by
    apply BitVec.eq_of_toNat_eq
    simp only [BitVec.toNat_setWidth] at h1 ⊢
    omega
  have h3 : f = BitVec.setWidth 8 (BitVec.setWidth 2 f) := by
    apply BitVec.eq_of_toNat_eq
    simp only [BitVec.toNat_setWidth]
    omega
  rw [h2, h3, key, BitVec.toNat_setWidth, BitVec.toNat_setWidth, h1, h,
    show m.toNat * 2 ^ (d + 1) = m.toNat * 2 ^ d * 2 by rw [Nat.pow_succ, Nat.mul_assoc]]
  · rw [h] at hd
    generalize m.toNat * 2 ^ d = X at *
    omega
  · rw [BitVec.toNat_setWidth, h1]
    generalize m.toNat * 2 ^ d = X at *
    omega

theorem f_bit3 (f : B) (h : f.toNat < 4) : (f &&& 8#8 != 0#8) = false := by
  have key : ∀ f : B, f.toNat < 4 → (f &&& 8#8 != 0#8) = false := by decide +kernel
  exact key f h

theorem shl_bit (v : W) : v <<< 1 ||| bitW false = v <<< 1 := by
  show v <<< 1 ||| 0#32 = _
  simp

/-! ### The loops -/

/-- The number has been shifted by `d` places, single places or digits. -/
structure Slq (e : Env) (tk : Bool) (a : Arch) (r : BitVec 4) (m : W) (neg : Bool) (d : Nat) (s : S) : Prop where
  ae : AtEnd e tk a s
  fn : s.FN = 3#2
  md : s.MD = r
  sg : s.LSGNS = neg
  mv : s.mvf = 1#3
  l : s.L = m <<< d
  il : s.ILC = 2#2

/-- While shifting by single places. -/
structure Sl1 (e : Env) (tk : Bool) (a : Arch) (r : BitVec 4) (m : W) (neg : Bool) (d : Nat) (s : S) : Prop
    extends Slq e tk a r m neg d s where
  lost : s.F.toNat = m.toNat * 2 ^ d / 2 ^ 32

/-- While shifting by digits. -/
structure Sl4 (e : Env) (tk : Bool) (a : Arch) (r : BitVec 4) (m : W) (neg : Bool) (d : Nat) (s : S) : Prop
    extends Slq e tk a r m neg d s where
  ao : s.aob = s.L
  lost : ((byteOf s.M s.MB ||| s.F) &&& 15#8 = 0#8) ↔ m.toNat * 2 ^ d < 2 ^ 32

theorem g_next (g : B) (n : Nat) (hg : g.toNat % 16 = n) :
    2220 ||| 2 + (g &&& 15#8 == 0#8).toNat = if n = 0 then 0x8af else 0x8ae := by
  rw [g_zero, hg]
  by_cases h0 : n = 0
  · rw [if_pos h0, decide_eq_true h0]; rfl
  · rw [if_neg h0, decide_eq_false h0]; rfl

theorem hiDig_lt (v : W) : (hiDig v).toNat < 16 := by
  unfold hiDig
  rw [BitVec.toNat_setWidth, BitVec.toNat_ushiftRight, Nat.shiftRight_eq_div_pow]
  have := v.isLt
  omega

/-- Word `8ae`. -/
theorem sla_four {e : Env} {tk : Bool} {a : Arch} {r : BitVec 4} {m : W} {neg : Bool} (ho : EnvOk e)
    (n : Nat) : ∀ {s : S} {d : Nat}, Sl4 e tk a r m neg d s → s.G.toNat % 16 = n → s.ROAR = 0x8ae →
      Ev e tk (fun s' => Sl4 e tk a r m neg (d + 4 * (n + 1)) s' ∧ s'.ROAR = 0x8af) s := by
  induction n with
  | zero =>
    intro s d h hg hr
    refine Ev.plain (n := 0x8ae) ho h.ae.calm hr (by rw [w8ae]; decide) (fun t => x8ae e _ _)
      (fun t => by unfold memPart; rfl) fun t ht hc => .now ?_
    refine ⟨⟨⟨h.ae.updF hc h.ae.arch rfl rfl (hiDig_lt _) rfl rfl rfl rfl, h.fn, h.md, h.sg, h.mv, ?_, h.il⟩, rfl, ?_⟩, ?_⟩
    · simp only [bg, h.l, BitVec.shiftLeft_add]
    · simp only [bg, byteOf_put, h.l, h.mv]
      exact lost4 _ _ _ _ h.lost _ (mover_or _ _ _)
    · simp only [bg, g_next _ _ hg]; rfl
  | succ n ih =>
    intro s d h hg hr
    refine Ev.plain (n := 0x8ae) ho h.ae.calm hr (by rw [w8ae]; decide) (fun t => x8ae e _ _)
      (fun t => by unfold memPart; rfl) fun t ht hc => ?_
    rw [show d + 4 * (n + 1 + 1) = (d + 4) + 4 * (n + 1) by omega]
    refine ih ⟨⟨h.ae.updF hc h.ae.arch rfl rfl (hiDig_lt _) rfl rfl rfl rfl, h.fn, h.md, h.sg, h.mv, ?_, h.il⟩, rfl, ?_⟩ ?_ ?_
    · simp only [bg, h.l, BitVec.shiftLeft_add]
    · simp only [bg, byteOf_put, h.l, h.mv]
      exact lost4 _ _ _ _ h.lost _ (mover_or _ _ _)
    · exact g_and hg
    · simp only [bg, g_next _ _ hg]; rfl

/-- Word `8ad`. -/
theorem sla_mid {e : Env} {tk : Bool} {a : Arch} {r : BitVec 4} {m : W} {neg : Bool} (ho : EnvOk e)
    (n : Nat) {s : S} {d : Nat} (h : Sl1 e tk a r m neg d s) (hg : s.G.toNat % 16 = n) (hr : s.ROAR = 0x8ad) :
    Ev e tk (fun s' => Sl4 e tk a r m neg (d + 4 * n) s' ∧ s'.ROAR = 0x8af) s := by
  refine Ev.plain (n := 0x8ad) ho h.ae.calm hr (by rw [w8ad]; decide) (fun t => x8ad e _ _)
    (fun t => by unfold memPart; rfl) fun t ht hc => ?_
  have hl : ((0#8 ||| s.F) &&& 15#8 = 0#8) ↔ m.toNat * 2 ^ d < 2 ^ 32 := by
    have key : ∀ f : B, f.toNat < 16 → (((0#8 ||| f) &&& 15#8 = 0#8) ↔ f.toNat = 0) := by decide +kernel
    rw [key _ h.ae.f, h.lost]
    omega
  refine Ev.bind (P := fun s' => Sl4 e tk a r m neg d s' ∧ s'.G = (s.G &&& 240#8 ||| s.G - 1#8 &&& 15#8) ∧
    s'.ROAR = if n = 0 then 0x8af else 0x8ae) (.now ⟨⟨⟨h.ae.upd hc h.ae.arch rfl rfl rfl rfl rfl rfl rfl, h.fn, h.md,
      h.sg, h.mv, h.l, h.il⟩, rfl, ?_⟩, rfl, ?_⟩) ?_
  · simp only [bg, byteOf_put]; exact hl
  · simp only [bg, g_next _ _ hg]
  · rintro s2 ⟨h2, hg2, hr2⟩
    cases n with
    | zero => exact .now ⟨h2, hr2⟩
    | succ n => exact sla_four ho n h2 (by rw [hg2]; exact g_and hg) hr2

/-- Word `8ac`. -/
theorem sla_one {e : Env} {tk : Bool} {a : Arch} {r : BitVec 4} {m : W} {neg : Bool} (ho : EnvOk e)
    (g n : Nat) : ∀ {s : S} {d : Nat}, Sl1 e tk a r m neg d s → d + n ≤ 2 → s.G.toNat % 16 = g → s.LB.toNat = n →
      s.ROAR = 0x8ac → Ev e tk (fun s' => Sl4 e tk a r m neg (d + (n + 1) + 4 * g) s' ∧ s'.ROAR = 0x8af) s := by
  have hlt : ∀ {s : S} {d : Nat}, Sl1 e tk a r m neg d s → d ≤ 2 → s.F.toNat < 4 := by
    intro s d h hd
    rw [h.lost]
    have h1 := m.isLt
    have : d = 0 ∨ d = 1 ∨ d = 2 := by omega
    rcases this with rfl | rfl | rfl <;> omega
  have hro : ∀ (b : BitVec 2) (n : Nat), b.toNat = n → 2220 ||| (b == 0#2).toNat = if n = 0 then 0x8ad else 0x8ac := by
    intro b n hb
    rw [beq0, hb]
    by_cases h0 : n = 0
    · rw [if_pos h0, decide_eq_true h0]; rfl
    · rw [if_neg h0, decide_eq_false h0]; rfl
  induction n with
  | zero =>
    intro s d h hd hg hl hr
    refine Ev.plain (n := 0x8ac) ho h.ae.calm hr (by rw [w8ac]; decide) (fun t => x8ac e _ _)
      (fun t => by unfold memPart; rfl) fun t ht hc => ?_
    have hf := hlt h (by omega)
    refine sla_mid (d := d + 1) ho g ⟨⟨h.ae.updF hc h.ae.arch rfl rfl (and15_lt _) rfl rfl rfl rfl, h.fn, h.md,
      h.sg, h.mv, ?_, h.il⟩, ?_⟩ hg ?_
    · simp only [bg, h.l, f_bit3 _ hf, shl_bit, BitVec.shiftLeft_add]
    · simp only [bg, h.l]; exact lost1 _ _ _ h.lost hf
    · simp only [bg, hro _ _ hl]; rfl
  | succ n ih =>
    intro s d h hd hg hl hr
    refine Ev.plain (n := 0x8ac) ho h.ae.calm hr (by rw [w8ac]; decide) (fun t => x8ac e _ _)
      (fun t => by unfold memPart; rfl) fun t ht hc => ?_
    have hf := hlt h (by omega)
    rw [show d + (n + 1 + 1) = (d + 1) + (n + 1) by omega]
    refine ih (d := d + 1) ⟨⟨h.ae.updF hc h.ae.arch rfl rfl (and15_lt _) rfl rfl rfl rfl, h.fn, h.md,
      h.sg, h.mv, ?_, h.il⟩, ?_⟩ (by omega) hg (low2_pred _ _ hl) ?_
    · simp only [bg, h.l, f_bit3 _ hf, shl_bit, BitVec.shiftLeft_add]
    · simp only [bg, h.l]; exact lost1 _ _ _ h.lost hf
    · simp only [bg, hro _ _ hl]; rfl

/-! ### The result -/

theorem shl_ofNat (m : W) (n : Nat) : m <<< n = BitVec.ofNat 32 (m.toNat * 2 ^ n) := by
  apply BitVec.eq_of_toNat_eq
  rw [shl_nat, BitVec.toNat_ofNat]

theorem mag_pos {v : W} (h : v.msb = false) : magOf v = v ∧ v.toNat < 2 ^ 31 ∧ v.toInt = (v.toNat : Int) := by
  have h1 : v.toNat < 2 ^ 31 := by
    rw [BitVec.msb_eq_decide] at h
    simpa using h
  refine ⟨by unfold magOf; rw [h]; rfl, h1, BitVec.toInt_eq_toNat_of_lt (by omega)⟩

theorem mag_neg {v : W} (h : v.msb = true) :
    1 ≤ (magOf v).toNat ∧ (magOf v).toNat ≤ 2 ^ 31 ∧ v.toInt = -((magOf v).toNat : Int) := by
  have h1 : 2 ^ 31 ≤ v.toNat := by
    rw [BitVec.msb_eq_decide] at h
    simpa using h
  have h2 := v.isLt
  have h3 : (magOf v).toNat = 2 ^ 32 - v.toNat := by
    unfold magOf
    rw [h, if_pos rfl, show ~~~v + 1#32 = -v from (BitVec.neg_eq_not_add v).symm, BitVec.toNat_neg]
    omega
  refine ⟨by omega, by omega, ?_⟩
  rw [BitVec.toInt_eq_toNat_cond, if_neg (by omega), h3]
  omega

theorem sgn_put (v y : W) : (v.extractLsb' 31 1 ++ y.extractLsb' 0 31 : W) =
    if v.msb then y ||| 2147483648#32 else y &&& 2147483647#32 := by
  have hm : v.msb = v.getLsbD 31 := rfl
  rw [hm]
  cases hb : v.getLsbD 31 <;>
    (apply BitVec.eq_of_getLsbD_eq; intro i hi
     simp only [BitVec.getLsbD_append, BitVec.getLsbD_extractLsb']
     interval_cases i <;> simp [hb, ← BitVec.getLsbD_eq_getElem])

theorem or_top (y : W) (h : y.msb = true) : y ||| 2147483648#32 = y := by
  have hm : y.getLsbD 31 = true := h
  apply BitVec.eq_of_getLsbD_eq; intro i hi
  by_cases h31 : i = 31
  · subst h31; simp [hm]
  · interval_cases i <;> simp_all

theorem and_top (y : W) (h : y.msb = false) : y &&& 2147483647#32 = y := by
  have hm : y[31] = false := h
  apply BitVec.eq_of_getLsbD_eq; intro i hi
  by_cases h31 : i = 31
  · subst h31; simp [hm]
  · interval_cases i <;> simp_all

theorem msb_nat (y : W) : y.msb = decide (2 ^ 31 ≤ y.toNat) := BitVec.msb_eq_decide y

/-- What the microprogram gets for a positive number. -/
theorem left_pos {a : Arch} {r : BitVec 4} {n : Nat} (h : (a.gr r).msb = false) :
    (if (a.gr r).toNat * 2 ^ n < 2 ^ 32 ∧ ((a.gr r) <<< n).msb = false
      then fits ((a.gr r).toInt * 2 ^ n) ∧ a.shiftLeft r n =
        (a.put r ((a.gr r) <<< n)).setCC (ccSign ((a.gr r) <<< n).toInt)
      else ¬ fits ((a.gr r).toInt * 2 ^ n) ∧ a.shiftLeft r n = (a.put r ((a.gr r) <<< n &&& 2147483647#32)).setCC 3) := by
  obtain ⟨-, h1, h2⟩ := mag_pos h
  unfold Arch.shiftLeft
  generalize hv : a.gr r = v at *
  have h3 : v.toInt * 2 ^ n = ((v.toNat * 2 ^ n : Nat) : Int) := by
    rw [h2]; push_cast; rfl
  have h4 := shl_nat v n
  have h5 := msb_nat (v <<< n)
  have h6 : BitVec.ofInt 32 ((v.toNat * 2 ^ n : Nat) : Int) = v <<< n := by
    rw [BitVec.ofInt_natCast, shl_ofNat]
  rw [sgn_put, h, h3, h6]
  have h7 := @BitVec.toInt_eq_toNat_of_lt 32 (v <<< n)
  generalize v <<< n = y at *
  generalize v.toNat * 2 ^ n = X at *
  by_cases hx : X < 2 ^ 31
  · have h8 : y.toNat = X := by omega
    rw [if_pos ⟨by omega, by rw [h5, decide_eq_false (by omega)]⟩]
    refine ⟨⟨by omega, by omega⟩, ?_⟩
    rw [if_pos ⟨by omega, by omega⟩, h7 (by omega), h8]
  · rw [if_neg (by
      rintro ⟨h9, h10⟩
      rw [h5, decide_eq_false_iff_not] at h10
      omega)]
    refine ⟨fun h9 => absurd h9.2 (by omega), ?_⟩
    rw [if_neg (by omega)]
    rfl

/-- What the microprogram gets for a negative number. -/
theorem left_neg {a : Arch} {r : BitVec 4} {n : Nat} (h : (a.gr r).msb = true) :
    (if (magOf (a.gr r)).toNat * 2 ^ n < 2 ^ 32 ∧ ((magOf (a.gr r) <<< n).msb = false ∨ magOf (a.gr r) <<< n = 2147483648#32)
      then fits ((a.gr r).toInt * 2 ^ n) ∧ a.shiftLeft r n =
        (a.put r (~~~(magOf (a.gr r) <<< n) + 1#32 ||| 2147483648#32)).setCC 1
      else ¬ fits ((a.gr r).toInt * 2 ^ n) ∧ a.shiftLeft r n =
        (a.put r (~~~(magOf (a.gr r) <<< n) + 1#32 ||| 2147483648#32)).setCC 3) := by
  obtain ⟨h0, h1, h2⟩ := mag_neg h
  unfold Arch.shiftLeft
  generalize hv : a.gr r = v at *
  generalize magOf v = m at *
  have h3 : v.toInt * 2 ^ n = -((m.toNat * 2 ^ n : Nat) : Int) := by
    rw [h2]; push_cast; rw [Int.neg_mul]
  have h4 := shl_nat m n
  have h5 := msb_nat (m <<< n)
  have h6 : BitVec.ofInt 32 (-((m.toNat * 2 ^ n : Nat) : Int)) = ~~~(m <<< n) + 1#32 := by
    rw [BitVec.ofInt_neg, BitVec.ofInt_natCast, shl_ofNat, BitVec.neg_eq_not_add]
  have hX : 1 ≤ m.toNat * 2 ^ n := Nat.mul_pos h0 (Nat.two_pow_pos n)
  rw [sgn_put, h, if_pos rfl, h3, h6]
  have h8 : (m <<< n = 2147483648#32) ↔ (m <<< n).toNat = 2 ^ 31 :=
    ⟨fun h => by rw [h]; rfl, fun h => BitVec.eq_of_toNat_eq (h.trans rfl)⟩
  have h9 : (~~~(m <<< n) + 1#32).toNat = (2 ^ 32 - (m <<< n).toNat) % 2 ^ 32 := by
    rw [← BitVec.neg_eq_not_add, BitVec.toNat_neg]
  generalize m <<< n = y at *
  generalize m.toNat * 2 ^ n = X at *
  have hy := y.isLt
  by_cases hx : X ≤ 2 ^ 31
  · have h10 : y.toNat = X := by omega
    have h11 : y.msb = false ∨ y = 2147483648#32 := by
      rw [h8, h5, decide_eq_false_iff_not, h10]
      omega
    rw [if_pos ⟨by omega, h11⟩]
    refine ⟨⟨by omega, by omega⟩, ?_⟩
    rw [if_pos ⟨by omega, by omega⟩, or_top _ (by rw [msb_nat, h9]; exact decide_eq_true (by omega))]
    unfold ccSign
    rw [if_neg (by omega), if_pos (by omega)]
  · rw [if_neg (by
      rintro ⟨h11, h12⟩
      rw [h8, h5, decide_eq_false_iff_not] at h12
      omega)]
    refine ⟨fun h9 => absurd h9.1 (by omega), ?_⟩
    rw [if_neg (by omega)]

/-- The end of the shift: the result is in the register, and the overflow is known. -/
structure Slz (e : Env) (tk : Bool) (b : Arch) (ok : Prop) (s : S) : Prop where
  good : ok → AtEnd e tk b s ∧ s.ROAR = 0x883
  il : s.ILC = 2#2
  over : ¬ ok → ∃ c, AtEnd e tk (b.setCC c) s ∧ s.ROAR = 0x21b ∧ byteOf s.M s.MB = 8#8 ∧ s.mvf = 2

/-- Words `881` and `882`. -/
theorem sla_over {e : Env} {tk : Bool} {b : Arch} {c : BitVec 2} {s : S} (ho : EnvOk e)
    (h : AtEnd e tk (b.setCC c) s) (il : s.ILC = 2#2) (hr : s.ROAR = 0x881 ∨ s.ROAR = 0x882) {ok : Prop} (hok : ¬ ok) :
    Ev e tk (Slz e tk b ok) s := by
  rcases hr with hr | hr
  · refine Ev.plain (n := 0x881) ho h.calm hr (by rw [w881]; decide) (fun t => x881 e _ _)
      (fun t => by unfold memPart; rfl) fun t ht hc => .now ⟨fun h => absurd h hok, il, fun _ => ⟨c,
        h.updF hc h.arch rfl rfl ?_ rfl rfl rfl rfl, rfl, ?_, rfl⟩⟩
    · show (loDig 2147483648#32).toNat < 16
      decide
    · show byteOf 134217728#32 0#2 = 8#8
      decide
  · refine Ev.plain (n := 0x882) ho h.calm hr (by rw [w882]; decide) (fun t => x882 e _ _)
      (fun t => by unfold memPart; rfl) fun t ht hc => .now ⟨fun h => absurd h hok, il, fun _ => ⟨c,
        h.updF hc h.arch rfl rfl ?_ rfl rfl rfl rfl, rfl, ?_, rfl⟩⟩
    · show (loDig 2147483648#32).toNat < 16
      decide
    · show byteOf 134217728#32 0#2 = 8#8
      decide

theorem neg_carry (y : W) (h : y.msb = true) :
    (BitVec.msb (carriesOf (~~~y) (0#32) (~~~y + 1#32)) ^^ BitVec.getMsbD (carriesOf (~~~y) (0#32) (~~~y + 1#32)) 1) =
      decide (y = 2147483648#32) := by
  have hm : y.getLsbD 31 = true := h
  have hn := msb_nat y
  rw [h] at hn
  have h31 : 2 ^ 31 ≤ y.toNat := of_decide_eq_true hn.symm
  have hy := y.isLt
  have h1 : (~~~y).toNat = 2 ^ 32 - 1 - y.toNat := BitVec.toNat_not
  have h2 : (~~~y + 1#32).toNat = (2 ^ 32 - y.toNat) % 2 ^ 32 := by
    rw [← BitVec.neg_eq_not_add, BitVec.toNat_neg]
  have h3 : (y = 2147483648#32) ↔ y.toNat = 2 ^ 31 :=
    ⟨fun h => by rw [h]; rfl, fun h => BitVec.eq_of_toNat_eq (h.trans rfl)⟩
  have h4 : carriesOf (~~~y) 0#32 (~~~y + 1#32) = ~~~y &&& ~~~(~~~y + 1#32) := by
    unfold carriesOf; simp
  have h5 : (carriesOf (~~~y) 0#32 (~~~y + 1#32)).msb = false := by
    rw [h4, BitVec.msb_and, BitVec.msb_not, h]; rfl
  have h6 : (carriesOf (~~~y) 0#32 (~~~y + 1#32)).getMsbD 1 =
      ((~~~y).toNat.testBit 30 && !(~~~y + 1#32).toNat.testBit 30) := by
    rw [h4]
    show (decide (1 < 32) && (~~~y &&& ~~~(~~~y + 1#32)).getLsbD 30) = _
    rw [BitVec.getLsbD_and, BitVec.getLsbD_not (x := ~~~y + 1#32)]
    rfl
  rw [h5, h6, h1, h2, Bool.false_xor, Nat.testBit_eq_decide_div_mod_eq, Nat.testBit_eq_decide_div_mod_eq,
    Bool.eq_iff_iff, decide_eq_true_iff, h3, Bool.and_eq_true, Bool.not_eq_true', decide_eq_true_iff,
    decide_eq_false_iff_not]
  omega

/-- Words `8af` and `884` to `887`. -/
theorem sla_fin {e : Env} {tk : Bool} {a : Arch} {r : BitVec 4} {n : Nat} {s : S} (ho : EnvOk e)
    (h : Sl4 e tk a r (magOf (a.gr r)) (a.gr r).msb n s) (hr : s.ROAR = 0x8af) :
    Ev e tk (Slz e tk (a.shiftLeft r n) (fits ((a.gr r).toInt * 2 ^ n))) s := by
  refine Ev.plain (n := 0x8af) ho h.ae.calm hr (by rw [w8af]; decide) (fun t => x8af e _ _)
    (fun t => by unfold memPart; rfl) fun t ht hc => ?_
  refine Ev.bind (P := fun s' => AtEnd e tk a s' ∧ s'.FN = 3#2 ∧ s'.MD = r ∧ s'.ILC = 2#2 ∧ s'.L = magOf (a.gr r) <<< n ∧
    (s'.w &&& 15#8 == 0#8) = decide ((magOf (a.gr r)).toNat * 2 ^ n < 2 ^ 32) ∧
    s'.ROAR = 2180 ||| 2 * (a.gr r).msb.toNat + (magOf (a.gr r) <<< n).msb.toNat) (.now ⟨h.ae.upd hc h.ae.arch rfl rfl rfl rfl
      rfl rfl rfl, h.fn, h.md, h.il, h.l, ?_, ?_⟩) ?_
  · show ((byteOf s.M s.MB &&& 240#8 ||| mvfR s.mvf (BitVec.setWidth 8 s.MD <<< 4 ||| s.F) (byteOf s.M s.MB)) &&& 15#8 == 0#8) = _
    rw [h.mv, mover_or, Bool.eq_iff_iff, beq_iff_eq, decide_eq_true_iff]
    exact h.lost
  · simp only [bg, h.sg, h.ao, h.l]
  rintro s2 ⟨h2, fn, md, il, l, w, hr2⟩
  cases hm : (a.gr r).msb with
  | false =>
    have hp := left_pos (a := a) (r := r) (n := n) hm
    rw [(mag_pos hm).1] at l w hr2
    rw [hm] at hr2
    cases hy : ((a.gr r) <<< n).msb with
    | false =>
      rw [hy] at hr2
      refine Ev.plain (n := 0x884) ho h2.calm hr2 (by rw [w884]; decide) (fun t => x884 e _ _)
        (fun t => by unfold memPart; rfl) fun t ht hc => ?_
      have hae : AtEnd e tk ((a.put r ((a.gr r) <<< n)).setCC (ccSign ((a.gr r) <<< n).toInt)) _ := h2.upd hc (by
          rw [← l, ← h2.arch]
          simp only [archOf, bg, fn, md, gr_put, fr_put, sys_put, Arch.put, Arch.setCC, cc_sign]) rfl rfl rfl rfl rfl
        (by simp only [bg, fn, ls30_put]) rfl
      by_cases hx : (a.gr r).toNat * 2 ^ n < 2 ^ 32
      · rw [if_pos ⟨hx, hy⟩] at hp
        rw [hp.2]
        refine .now ⟨fun _ => ⟨hae, ?_⟩, il, fun h => absurd hp.1 h⟩
        simp only [bg, w, decide_eq_true hx]; rfl
      · rw [if_neg fun h => hx h.1, and_top _ hy] at hp
        rw [hp.2]
        refine sla_over ho (b := (a.put r ((a.gr r) <<< n)).setCC 3) hae il (.inl ?_) hp.1
        simp only [bg, w, decide_eq_false hx]; rfl
    | true =>
      rw [hy] at hr2
      rw [if_neg fun h => by rw [hy] at h; exact nomatch h.2] at hp
      rw [hp.2]
      refine Ev.plain (n := 0x885) ho h2.calm hr2 (by rw [w885]; decide) (fun t => x885 e _ _)
        (fun t => by unfold memPart; rfl) fun t ht hc => ?_
      have hae : AtEnd e tk (((a.put r ((a.gr r) <<< n &&& 2147483647#32)).setCC 3).setCC a.cc) _ := h2.upd hc (by
          rw [← l, ← h2.arch]
          simp only [archOf, bg, fn, md, gr_put, fr_put, sys_put, Arch.put, Arch.setCC]) rfl rfl rfl rfl rfl
        (by simp only [bg, fn, ls30_put]) rfl
      exact sla_over ho hae il (.inl rfl) hp.1
  | true =>
    have hp := left_neg (a := a) (r := r) (n := n) hm
    rw [hm] at hr2
    generalize magOf (a.gr r) = m at *
    cases hy : (m <<< n).msb with
    | false =>
      rw [hy] at hr2
      refine Ev.plain (n := 0x886) ho h2.calm hr2 (by rw [w886]; decide) (fun t => x886 e _ _)
        (fun t => by unfold memPart; rfl) fun t ht hc => ?_
      have hae : AtEnd e tk ((a.put r (~~~(m <<< n) + 1#32 ||| 2147483648#32)).setCC 1) _ := h2.upd hc (by
          rw [← l, ← h2.arch]
          simp only [archOf, bg, fn, md, gr_put, fr_put, sys_put, Arch.put, Arch.setCC]
          rw [if_pos (Or.inr (by decide))]; rfl) rfl rfl rfl rfl rfl
        (by simp only [bg, fn, ls30_put]) rfl
      by_cases hx : m.toNat * 2 ^ n < 2 ^ 32
      · rw [if_pos ⟨hx, .inl hy⟩] at hp
        rw [hp.2]
        refine .now ⟨fun _ => ⟨hae, ?_⟩, il, fun h => absurd hp.1 h⟩
        simp only [bg, w, decide_eq_true hx]; rfl
      · rw [if_neg fun h => hx h.1] at hp
        rw [hp.2]
        refine sla_over ho (b := (a.put r _).setCC 3) hae il (.inl ?_) hp.1
        simp only [bg, w, decide_eq_false hx]; rfl
    | true =>
      rw [hy] at hr2
      refine Ev.plain (n := 0x887) ho h2.calm hr2 (by rw [w887]; decide) (fun t => x887 e _ _)
        (fun t => by unfold memPart; rfl) fun t ht hc => ?_
      have hae : AtEnd e tk ((a.put r (~~~(m <<< n) + 1#32 ||| 2147483648#32)).setCC 1) _ := h2.upd hc (by
          rw [← l, ← h2.arch]
          simp only [archOf, bg, fn, md, gr_put, fr_put, sys_put, Arch.put, Arch.setCC]
          rfl) rfl rfl rfl rfl rfl
        (by simp only [bg, fn, ls30_put]) rfl
      by_cases hx : m.toNat * 2 ^ n < 2 ^ 32
      · by_cases hz : m <<< n = 2147483648#32
        · rw [if_pos ⟨hx, .inr hz⟩] at hp
          rw [hp.2]
          refine .now ⟨fun _ => ⟨hae, ?_⟩, il, fun h => absurd hp.1 h⟩
          simp only [bg, w, decide_eq_true hx, l, neg_carry _ hy, decide_eq_true hz]; rfl
        · rw [if_neg fun h => by rw [hy] at h; exact h.2.elim (fun h => nomatch h) hz] at hp
          rw [hp.2]
          refine sla_over ho (b := (a.put r _).setCC 3) hae il (.inr ?_) hp.1
          simp only [bg, w, decide_eq_true hx, l, neg_carry _ hy, decide_eq_false hz]; rfl
      · rw [if_neg fun h => hx h.1] at hp
        rw [hp.2]
        refine sla_over ho (b := (a.put r _).setCC 3) hae il (.inl ?_) hp.1
        simp only [bg, w, decide_eq_false hx, Bool.not_false, Bool.true_or, Bool.or_true]; rfl

/-- Word `888`: the first place. -/
theorem sla_888 {e : Env} {tk : Bool} {a : Arch} {r : BitVec 4} {m : W} {neg : Bool} (ho : EnvOk e)
    (g n : Nat) {s : S} (h : Sl1 e tk a r m neg 0 s) (hn : n ≤ 2) (hg : (s.R.setWidth 8 &&& 15#8).toNat = g)
    (hl : s.LB.toNat = n) (hr : s.ROAR = 0x888) :
    Ev e tk (fun s' => Sl4 e tk a r m neg (n + 1 + 4 * g) s' ∧ s'.ROAR = 0x8af) s := by
  have hf : s.F.toNat < 4 := by
    rw [h.lost]
    have := m.isLt
    omega
  refine Ev.plain (n := 0x888) ho h.ae.calm hr (by rw [w888]; decide) (fun t => x888 e _ _)
    (fun t => by unfold memPart; rfl) fun t ht hc => ?_
  refine Ev.bind (P := fun s' => Sl1 e tk a r m neg 1 s' ∧ s'.G.toNat % 16 = g ∧ s'.LB = s.LB - 1#2 ∧
    s'.ROAR = if n = 0 then 0x8ad else 0x8ac) (.now ⟨⟨⟨h.ae.updF hc h.ae.arch rfl rfl (and15_lt _) rfl rfl rfl rfl, h.fn,
      h.md, h.sg, h.mv, ?_, h.il⟩, ?_⟩, ?_, rfl, ?_⟩) ?_
  · simp only [bg, h.l, f_bit3 _ hf, shl_bit, BitVec.shiftLeft_zero]
  · simp only [bg, h.l]; exact lost1 _ _ _ h.lost hf
  · simp only [bg, g_set, hg]
  · show 2220 ||| (s.LB == 0#2).toNat = _
    rw [beq0, hl]
    by_cases h0 : n = 0
    · rw [if_pos h0, decide_eq_true h0]; rfl
    · rw [if_neg h0, decide_eq_false h0]; rfl
  · rintro s2 ⟨h2, hg2, hl2, hr2⟩
    cases n with
    | zero =>
      exact sla_mid ho g h2 hg2 hr2
    | succ n =>
      have h3 := sla_one ho g n h2 (by omega) hg2 (by rw [hl2]; exact low2_pred _ _ hl) hr2
      rw [show 1 + (n + 1) + 4 * g = n + 1 + 1 + 4 * g by omega] at h3
      exact h3

/-- SLA up to the result. -/
theorem sla_exec {e : Env} {tk : Bool} {a : Arch} {i : BitVec 16} {x : W} {s : S} (ho : EnvOk e)
    (h : Op8 e tk a i x s) (hop : (opOf i).toNat = 0x8b) :
    Ev e tk (Slz e tk (a.shiftLeft (dig1 i) (x.toNat % 64))
      (fits ((a.gr (dig1 i)).toInt * 2 ^ (x.toNat % 64)))) s := by
  have hro := h.roar
  rw [hop] at hro
  have hx := amount _ _ h.r
  refine Ev.bind (P := fun s' => Sl4 e tk a (dig1 i) (magOf (a.gr (dig1 i))) (a.gr (dig1 i)).msb (x.toNat % 64) s' ∧
    s'.ROAR = 0x8af) ?_ fun s' h' => sla_fin ho h'.1 h'.2
  refine Ev.plain (n := 0x72e) ho h.ae.calm hro (by rw [w72e]; decide) (fun t => x72e e _ _)
    (fun t => by unfold memPart; rfl) fun t ht hc => ?_
  refine Ev.plain (n := 0x88d) ho hc rfl (by rw [w88d]; decide) (fun t => x88d e _ _)
    (fun t => by unfold memPart; rfl) fun t2 ht2 hc2 => ?_
  refine Ev.bind (P := fun s' => AtEnd e tk a s' ∧ s'.FN = 3#2 ∧ s'.MD = dig1 i ∧ s'.ILC = 2#2 ∧ s'.LSGNS = (a.gr (dig1 i)).msb ∧
    s'.mvf = 1#3 ∧ s'.L = a.gr (dig1 i) ∧ s'.F = 0#8 ∧ s'.R = s.R >>> 1 >>> 1 ∧ s'.LB = s.R.setWidth 2 - 1#2 ∧
    s'.ROAR = 2184 ||| 2 * (a.gr (dig1 i)).msb.toNat + (s.R.setWidth 2 == 0#2).toNat) (.now ?_) ?_
  · refine ⟨h.ae.updF hc2 h.ae.arch rfl rfl f0 rfl rfl rfl rfl, h.fn, h.md, h.il, ?_, rfl, h.l, rfl, rfl, rfl, ?_⟩
    · simp only [bg, h.l]
    · simp only [bg, h.l]
  generalize s.R = m at *
  clear h hro hc hc2
  rintro s2 ⟨h, fn, md, il, sg, mv, l, f, hR, lb, hr⟩
  rw [beq0] at hr
  generalize hv : a.gr (dig1 i) = v at *
  have hg : ∀ g : B, (g &&& 240#8 ||| (BitVec.setWidth 8 s2.R) &&& 15#8).toNat % 16 =
      ((m >>> 1 >>> 1).setWidth 8 &&& 15#8).toNat := fun g => by rw [g_set, hR]
  have hF : ∀ w : W, s2.F.toNat = w.toNat * 2 ^ 0 / 2 ^ 32 := fun w => by
    rw [f]
    have := w.isLt
    show 0 = _
    omega
  cases hm : v.msb with
  | false =>
    rw [(mag_pos hm).1]
    rw [hm] at hr sg
    by_cases h0 : (m.setWidth 2).toNat = 0
    · rw [decide_eq_true h0] at hr
      refine Ev.plain (n := 0x889) ho h.calm hr (by rw [w889]; decide) (fun t => x889 e _ _)
        (fun t => by unfold memPart; rfl) fun t ht hc => ?_
      have h3 := sla_mid (m := v) (neg := false) (d := 0) (r := dig1 i) ho ((m >>> 1 >>> 1).setWidth 8 &&& 15#8).toNat
        ⟨⟨h.upd hc h.arch rfl rfl rfl rfl rfl rfl rfl, fn, md, sg, mv, by simp only [bg, l, BitVec.shiftLeft_zero], il⟩, hF v⟩
        (hg _) rfl
      rw [show 0 + 4 * ((m >>> 1 >>> 1).setWidth 8 &&& 15#8).toNat = x.toNat % 64 by omega] at h3
      exact h3
    · rw [decide_eq_false h0] at hr
      obtain ⟨n, hn⟩ : ∃ n, (m.setWidth 2).toNat = n + 1 := ⟨_, (Nat.succ_pred h0).symm⟩
      have h3 := sla_888 (m := v) (neg := false) (r := dig1 i) ho ((m >>> 1 >>> 1).setWidth 8 &&& 15#8).toNat n
        ⟨⟨h, fn, md, sg, mv, by simp only [l, BitVec.shiftLeft_zero], il⟩, hF v⟩ (by have := (m.setWidth 2).isLt; omega)
        (by rw [hR]) (by rw [lb]; exact low2_pred _ _ hn) hr
      rw [show n + 1 + 4 * ((m >>> 1 >>> 1).setWidth 8 &&& 15#8).toNat = x.toNat % 64 by omega] at h3
      exact h3
  | true =>
    have hmag : magOf v = ~~~v + 1#32 := by unfold magOf; rw [hm]; rfl
    rw [hm] at hr sg
    by_cases h0 : (m.setWidth 2).toNat = 0
    · rw [decide_eq_true h0] at hr
      refine Ev.plain (n := 0x88b) ho h.calm hr (by rw [w88b]; decide) (fun t => x88b e _ _)
        (fun t => by unfold memPart; rfl) fun t ht hc => ?_
      have h3 := sla_mid (m := magOf v) (neg := true) (d := 0) (r := dig1 i) ho ((m >>> 1 >>> 1).setWidth 8 &&& 15#8).toNat
        ⟨⟨h.upd hc h.arch rfl rfl rfl rfl rfl rfl rfl, fn, md, sg, mv, by simp only [bg, l, hmag, BitVec.shiftLeft_zero], il⟩,
          hF _⟩ (hg _) rfl
      rw [show 0 + 4 * ((m >>> 1 >>> 1).setWidth 8 &&& 15#8).toNat = x.toNat % 64 by omega] at h3
      exact h3
    · rw [decide_eq_false h0] at hr
      obtain ⟨n, hn⟩ : ∃ n, (m.setWidth 2).toNat = n + 1 := ⟨_, (Nat.succ_pred h0).symm⟩
      refine Ev.plain (n := 0x88a) ho h.calm hr (by rw [w88a]; decide) (fun t => x88a e _ _)
        (fun t => by unfold memPart; rfl) fun t ht hc => ?_
      have h3 := sla_888 (m := magOf v) (neg := true) (r := dig1 i) ho ((m >>> 1 >>> 1).setWidth 8 &&& 15#8).toNat n
        ⟨⟨h.upd hc h.arch rfl rfl rfl rfl rfl rfl rfl, fn, md, sg, mv, by simp only [bg, l, hmag, BitVec.shiftLeft_zero], il⟩,
          hF _⟩ (by have := (m.setWidth 2).isLt; omega)
        (by simp only [bg, hR]) (by simp only [bg, lb]; exact low2_pred _ _ hn) rfl
      rw [show n + 1 + 4 * ((m >>> 1 >>> 1).setWidth 8 &&& 15#8).toNat = x.toNat % 64 by omega] at h3
      exact h3

/-! ### Overflow with an interruption -/

theorem begins8 {e : Env} : Begins e 0x218 8#8 :=
  ⟨fun ex s => x218 e ex s, by rw [w218], by rw [w218]; decide, by rw [w218]; decide⟩

/-- Overflow with the mask on: the condition code becomes 3, and a program interruption follows. -/
theorem ovf_trap {e : Env} {tk : Bool} {a b : Arch} {ilc : BitVec 2} {s : S} (ho : EnvOk e) (h : AtEnd e tk a s)
    (hr : s.ROAR = 0x21b) (hM : byteOf s.M s.MB = 8#8) (hf : s.mvf = 2) (il : s.ILC = ilc)
    (hp : a.pm.getLsbD 3 = true) (hk : a.Kept) (hm : 112 ≤ 4 * words e)
    (hb : b = interrupt (a.setCC 3) 0x28 8 ilc) (hw : tk = false → Quiet a b) (hi : InStore e b) :
    Ev e tk (Bd e tk b) s := by
  refine Ev.plain ho h.calm hr (by rw [w21b]; decide) (fun t => x21b e _ _)
    (fun t => by unfold memPart; rfl) fun t ht hc => ?_
  refine Ev.plain ho hc rfl (by rw [w248]; decide) (fun t => x248 e _ _)
    (fun t => by unfold memPart; rfl) fun t2 ht2 hc2 => ?_
  have hpm : s.PMASK = a.pm := by rw [← h.arch]; rfl
  refine pgm_exec (a := a.setCC 3) ho begins8 ⟨hc2, ?_⟩ il ?_ hk hm hb hw hi
  · rw [← h.arch]; rfl
  · simp only [bg, hM, hf, hpm]
    have h0 : ∀ (p : BitVec 4) (i c : BitVec 2), p.getLsbD 3 = true →
        ((mvfL 2 (BitVec.setWidth 8 i <<< 6 ||| BitVec.setWidth 8 c <<< 4 ||| BitVec.setWidth 8 p) 8#8
        ||| mvfR 2 (BitVec.setWidth 8 i <<< 6 ||| BitVec.setWidth 8 c <<< 4 ||| BitVec.setWidth 8 p) 8#8)
          == 0#8) = false := by decide +kernel
    rw [h0 a.pm _ _ hp]; rfl

/-! ### The theorems -/

theorem shiftLeft_keeps (a : Arch) (r : BitVec 4) (n : Nat) : ∃ v c, a.shiftLeft r n = (a.put r v).setCC c := by
  unfold Arch.shiftLeft
  split
  · exact ⟨_, _, rfl⟩
  · exact ⟨_, _, rfl⟩

theorem shiftLeft_over {a : Arch} {r : BitVec 4} {n : Nat} (h : ¬ fits ((a.gr r).toInt * 2 ^ n)) (c : BitVec 2) :
    ((a.shiftLeft r n).setCC c).setCC 3 = a.shiftLeft r n := by
  unfold Arch.shiftLeft
  rw [if_neg (show ¬ (-2 ^ 31 ≤ (a.gr r).toInt * 2 ^ n ∧ (a.gr r).toInt * 2 ^ n < 2 ^ 31) from h)]
  rfl

/-- C167: SHIFT LEFT SINGLE multiplies the number in its register by the power of two given by the low six bits of
the operand address, and sets the condition code by the sign of the product; if the product does not fit, the sign
stays, the low 31 bits are those of the product, and the condition code is 3. Nothing else changes. `hp`: in
that case the interruption for overflow is masked off. -/
theorem C167_shift_left {e : Env} {tk : Bool} {a : Arch} {s : S} (ho : EnvOk e)
    (h : Ready e tk a s) (hia : InStore e a) (hop : (opOf a.inst).toNat = 0x8b)
    (hp : fits ((a.gr (dig1 a.inst)).toInt * 2 ^ (a.operand.toNat % 64)) ∨ a.pm.getLsbD 3 = false)
    (hi : InStore e a.next) (tick : Nat → Bool) (ht : ∀ i, tick i = true → tk = true) :
    ∃ n s', run e tick n s = .ok s' ∧
      (Ready e tk (a.next.shiftLeft (dig1 a.inst) (a.operand.toNat % 64)) s' ∨
       Pend e tk (a.next.shiftLeft (dig1 a.inst) (a.operand.toNat % 64)) s') := by
  refine ((op8_exec ho h hia (by omega)).bind fun s1 h1 => (sla_exec ho h1 hop).bind fun s2 h2 => ?_).run tick ht
  obtain ⟨v, c, hv⟩ := shiftLeft_keeps a.next (dig1 a.inst) (a.operand.toNat % 64)
  have hi' : InStore e (a.next.shiftLeft (dig1 a.inst) (a.operand.toNat % 64)) := hi.same (by rw [hv]; rfl)
  by_cases hf : fits ((a.gr (dig1 a.inst)).toInt * 2 ^ (a.operand.toNat % 64))
  · obtain ⟨h3, h4⟩ := h2.good hf
    exact sra_end ho hi' h3 h4
  · obtain ⟨c', h3, h4, h5, h6⟩ := h2.over hf
    exact ovf_tail ho h3 (hi'.same rfl) h4 h5 h6 (by rw [hv]; exact hp.resolve_left hf) (shiftLeft_over (a := a.next) hf c')

/-- C167: if the product does not fit and the interruption for overflow is not masked off, a program interruption with
the code 8 follows the shift. -/
theorem C167_overflow {e : Env} {tk : Bool} {a b : Arch} {s : S} (ho : EnvOk e)
    (h : Ready e tk a s) (hia : InStore e a) (hk : a.Kept) (hm : 112 ≤ 4 * words e)
    (hop : (opOf a.inst).toNat = 0x8b)
    (hf : ¬ fits ((a.gr (dig1 a.inst)).toInt * 2 ^ (a.operand.toNat % 64))) (hp : a.pm.getLsbD 3 = true)
    (hb : b = interrupt (a.next.shiftLeft (dig1 a.inst) (a.operand.toNat % 64)) 0x28 8 2)
    (hw : tk = false → Quiet a b) (hi : InStore e b)
    (tick : Nat → Bool) (ht : ∀ i, tick i = true → tk = true) :
    ∃ n s', run e tick n s = .ok s' ∧ (Ready e tk b s' ∨ Pend e tk b s') := by
  refine ((op8_exec ho h hia (by omega)).bind fun s1 h1 => (sla_exec ho h1 hop).bind fun s2 h2 => ?_).run tick ht
  obtain ⟨v, c, hv⟩ := shiftLeft_keeps a.next (dig1 a.inst) (a.operand.toNat % 64)
  obtain ⟨c', h3, h4, h5, h6⟩ := h2.over hf
  refine ovf_trap ho h3 h4 h5 h6 h2.il ?_ ?_ hm (by rw [shiftLeft_over (a := a.next) hf c']; exact hb) ?_ hi
  · rw [hv]; exact hp
  · rw [hv]; exact hk
  · rw [hv]; exact hw

/-- At 100: `SLA 1,w`. -/
def slaMem (w : W) (i : Nat) : W := if i = 64 then 0x8b100000 ||| w else if i = 27 then 0x200 else 0

/-- The processor at 100 with `v` in register 1 and the program mask `p`. -/
def startSla (w v : W) (p : BitVec 4) : S :=
  { start (slaMem w) 0 (fun _ => 0) with
    PMASK := p, LS := fun k => if k = 3#2 ++ 1#4 then v else 0 }

/-- Its registers and storage. -/
def archSla (w v : W) (p : BitVec 4) : Arch :=
  { arch0 (slaMem w) 0 (fun _ => 0) with pm := p, gr := fun r => if r = 1 then v else 0 }

theorem ready_sla (w v : W) (p : BitVec 4) : Ready e64 true (archSla w v p) (startSla w v p) := by
  refine .even ⟨rfl, rfl, rfl, ?_, (fun h => nomatch h), fun h => nomatch h⟩ ?_ (.inl rfl) ?_ ?_ ?_
  · show (0x100#32).toNat ≤ _
    decide
  · show (0#8).toNat < 16
    decide
  · have h1 : (fun r : BitVec 4 => (startSla w v p).LS (3#2 ++ r)) = fun r => if r = 1 then v else 0 := by
      funext r
      have key : ∀ r : BitVec 4, ((3#2 ++ r : BitVec 6) = 3#2 ++ 1#4) ↔ r = 1 := by decide
      show (if (3#2 ++ r : BitVec 6) = 3#2 ++ 1#4 then v else 0) = _
      simp only [key]
    have h2 : (fun r : BitVec 4 => (startSla w v p).LS (2#2 ++ r)) = fun _ => (0 : W) := by
      funext r
      have key : ∀ r : BitVec 4, ¬ (2#2 ++ r : BitVec 6) = 3#2 ++ 1#4 := by decide
      exact if_neg (key r)
    unfold archOf
    rw [h1, h2]
    rfl
  · show (0x100#32).toNat % 4 = 0
    decide
  · show (0x100#32).toNat / 4 = (0x100#32).toNat / 4
    rfl

/-- -3 shifted by 6 places. -/
example (tick : Nat → Bool) : ∃ n s', run e64 tick n (startSla 6 0xfffffffd 0) = .ok s' ∧
    ∃ b : Arch, (b.gr 1 = 0xffffff40 ∧ b.cc = 1 ∧ b.ia = 0x104) ∧ (Ready e64 true b s' ∨ Pend e64 true b s') := by
  obtain ⟨n, s', h1, h2⟩ := C167_shift_left e64_ok (ready_sla 6 0xfffffffd 0) ⟨by decide, by decide⟩ (by decide)
    (.inr (by decide)) ⟨by decide, by decide⟩ tick (by simp)
  exact ⟨n, s', h1, _, by decide, h2⟩

/-- 40000001 shifted by 2 places, without and with the interruption. -/
example (tick : Nat → Bool) : ∃ n s', run e64 tick n (startSla 2 0x40000001 0) = .ok s' ∧
    ∃ b : Arch, (b.gr 1 = 4 ∧ b.cc = 3 ∧ b.ia = 0x104) ∧ (Ready e64 true b s' ∨ Pend e64 true b s') := by
  obtain ⟨n, s', h1, h2⟩ := C167_shift_left e64_ok (ready_sla 2 0x40000001 0) ⟨by decide, by decide⟩ (by decide)
    (.inr (by decide)) ⟨by decide, by decide⟩ tick (by simp)
  exact ⟨n, s', h1, _, by decide, h2⟩

example (tick : Nat → Bool) : ∃ n s', run e64 tick n (startSla 2 0x40000001 8) = .ok s' ∧
    ∃ b : Arch, (b.gr 1 = 4 ∧ b.mem 10 = 8 ∧ b.mem 11 = 0xb8000104 ∧ b.ia = 0x200) ∧
      (Ready e64 true b s' ∨ Pend e64 true b s') := by
  obtain ⟨n, s', h1, h2⟩ := C167_overflow e64_ok (ready_sla 2 0x40000001 8) ⟨by decide, by decide⟩
    (by unfold Arch.Kept; decide) (by decide) (by decide) (by unfold fits; decide) (by decide) rfl (fun h => nomatch h)
    ⟨by decide, by decide⟩ tick (by simp)
  exact ⟨n, s', h1, _, by decide, h2⟩

end Cpu50
end Verif
