import Verif.Cpu50.Words16
import Verif.Cpu50.Overflow

/-!
# Model 2050: the floating-point loads between registers (C169)
-/

namespace Verif.S360

/-- Specification. The numbers of the floating-point registers. -/
def fpReg (r : BitVec 4) : Prop := r = 0 ∨ r = 2 ∨ r = 4 ∨ r = 6

instance (r : BitVec 4) : Decidable (fpReg r) := by unfold fpReg; infer_instance

/-- Specification. One word of the floating-point registers. -/
def Arch.putF (a : Arch) (r : BitVec 4) (v : BitVec 32) : Arch := { a with fr := fun i => if i = r then v else a.fr i }

/-- Specification. A short or long number to a floating-point register; `v` has sign, characteristic and the first
24 bits of the fraction. -/
def Arch.putFloat (a : Arch) (short : Bool) (r : BitVec 4) (v w : BitVec 32) : Arch :=
  if short then a.putF r v else (a.putF r v).putF (r + 1) w

/-- Specification. The sign for LOAD POSITIVE (0), LOAD NEGATIVE (1), LOAD AND TEST (2), LOAD COMPLEMENT (3). -/
def withSign (k : Nat) (v : BitVec 32) : BitVec 32 :=
  (if k = 0 then 0#1 else if k = 1 then 1#1 else if k = 3 then ~~~v.extractLsb' 31 1 else v.extractLsb' 31 1) ++
    v.extractLsb' 0 31

/-- Specification. The condition code of a floating-point number: 0 for a fraction of zero, 1 for a negative and 2 for a
positive number. -/
def ccFloat (v w : BitVec 32) : BitVec 2 :=
  if v.extractLsb' 0 24 = 0 ∧ w = 0 then 0 else if v.msb then 1 else 2

/-- Specification. LPDR LNDR LTDR LCDR LDR LPER LNER LTER LCER LER; `k` is the second digit of the operation code. -/
def Arch.floatLoad (a : Arch) (short : Bool) (k : Nat) (r1 r2 : BitVec 4) : Arch :=
  if k = 8 then a.putFloat short r1 (a.fr r2) (a.fr (r2 + 1))
  else (a.putFloat short r1 (withSign k (a.fr r2)) (a.fr (r2 + 1))).setCC
    (ccFloat (withSign k (a.fr r2)) (if short then 0 else a.fr (r2 + 1)))

end Verif.S360

namespace Verif.Cpu50
open Verif.S360
attribute [local irreducible] ros

/-! ### Floating-point registers in local storage -/

theorem grF (ls : BitVec 6 → W) (r : BitVec 4) (v : W) :
    (fun i : BitVec 4 => lsPut ls (2#2 ++ r) v (3#2 ++ i)) = fun i => ls (3#2 ++ i) := by
  funext i
  have h : ¬ (3#2 ++ i : BitVec 6) = 2#2 ++ r := by revert i r; decide
  simp only [lsPut]; exact if_neg h

theorem frF (ls : BitVec 6 → W) (r : BitVec 4) (v : W) :
    (fun i : BitVec 4 => lsPut ls (2#2 ++ r) v (2#2 ++ i)) = fun i => if i = r then v else ls (2#2 ++ i) := by
  funext i
  have h : ∀ i r : BitVec 4, ((2#2 ++ i : BitVec 6) = 2#2 ++ r) = (i = r) := by decide
  simp only [lsPut, h]

theorem sysF (ls : BitVec 6 → W) (r : BitVec 4) (v : W) : lsPut ls (2#2 ++ r) v 23#6 = ls 23#6 := by
  have h : ¬ (23#6 = 2#2 ++ r) := by revert r; decide
  simp only [lsPut]; exact if_neg h

theorem ls30F (ls : BitVec 6 → W) (r : BitVec 4) (v : W) : lsPut ls (2#2 ++ r) v 30 = ls 30 := by
  have h : ¬ (30#6 = 2#2 ++ r) := by revert r; decide
  simp only [lsPut]; exact if_neg h

theorem arch_putF {s s' : S} {r : BitVec 4} {v : W} (ha : archOf s' = archOf { s with LS := s'.LS })
    (hl : s'.LS = lsPut s.LS (2#2 ++ r) v) : archOf s' = (archOf s).putF r v := by
  rw [ha, hl]
  simp only [archOf, grF, frF, sysF, Arch.putF]

theorem arch_putF' {s s' : S} {a : Arch} {r : BitVec 4} {v : W} (h : archOf s = a)
    (ha : archOf s' = archOf { s with LS := s'.LS })
    (hl : s'.LS = lsPut s.LS (2#2 ++ r) v) : archOf s' = a.putF r v := by
  rw [← h]; exact arch_putF ha hl

theorem putF_back (a : Arch) (r : BitVec 4) (v : W) : (a.putF r v).putF r (a.fr r) = a := by
  cases a
  simp only [Arch.putF, Arch.mk.injEq, and_true, true_and]
  funext i
  by_cases h : i = r <;> simp [h]

theorem fp_ok {r : BitVec 4} : (r &&& 9#4 != 0#4) = !decide (fpReg r) := by
  revert r; unfold fpReg; decide

theorem fp_or {r : BitVec 4} (h : fpReg r) : r ||| 1#4 = r + 1 := by
  revert r; unfold fpReg; decide

theorem fp_ne {r q : BitVec 4} (h : fpReg r) (hq : fpReg q) : ¬ q + 1 = r := by
  revert r q; unfold fpReg; decide

/-! ### The words -/

/-- The second operand is in `L`. -/
structure OpF (e : Env) (tk : Bool) (short : Bool) (a : Arch) (i : BitVec 16) (s : S) : Prop where
  ae : AtEnd e tk a s
  fn : s.FN = 2#2
  md : s.MD = dig1 i
  j : s.J = dig2 i
  l : s.L = a.fr (dig2 i)
  car : s.CAR = short
  il : s.ILC = 1#2
  roar : s.ROAR = 768 ||| ((opOf i).toNat % 16) <<< 2

theorem fr_of {s : S} {a : Arch} {r : BitVec 4} (h : archOf s = a) : s.LS (2#2 ++ r) = a.fr r := by
  rw [← h]; rfl

theorem to_opF {e : Env} {tk : Bool} {a : Arch} {i : BitVec 16} {s : S} (ho : EnvOk e)
    (h : FetRR e tk a i s) (hop : (opOf i).toNat / 16 = 2 ∨ (opOf i).toNat / 16 = 3) :
    Ev e tk (OpF e tk (decide ((opOf i).toNat / 16 = 3)) a i) s := by
  obtain ⟨b, hr⟩ := h.roar
  have hae : AtEnd e tk a s := h.atEnd
  rcases hop with hop | hop
  · rw [hop] at hr ⊢
    cases b with
    | false =>
      refine Ev.plain (n := 0x108) ho h.calm hr (by rw [w108]; decide) (fun t => x108 e _ _)
        (fun t => by unfold memPart; rfl) fun t ht hc => .now ?_
      exact ⟨hae.updF hc h.arch rfl rfl (show (loDig 0#32).toNat < 16 by decide) rfl rfl rfl rfl, rfl, h.md, h.j,
        by simp only [bg, h.j]; exact fr_of h.arch, (show BitVec.msb (carriesOf 0#32 0#32 0#32) = _ by decide), h.ilc, by simp only [bg, h.lo]⟩
    | true =>
      refine Ev.plain (n := 0x109) ho h.calm hr (by rw [w109]; decide) (fun t => x109 e _ _)
        (fun t => by unfold memPart; rfl) fun t ht hc => .now ?_
      exact ⟨hae.updF hc h.arch rfl rfl (show (loDig 0#32).toNat < 16 by decide) rfl rfl rfl rfl, rfl, h.md, h.j,
        by simp only [bg, h.j]; exact fr_of h.arch, (show BitVec.msb (carriesOf 0#32 0#32 0#32) = _ by decide), h.ilc, by simp only [bg, h.lo]⟩
  · rw [hop] at hr ⊢
    cases b with
    | false =>
      refine Ev.plain (n := 0x10c) ho h.calm hr (by rw [w10c]; decide) (fun t => x10c e _ _)
        (fun t => by unfold memPart; rfl) fun t ht hc => .now ?_
      exact ⟨hae.updF hc h.arch rfl rfl (show (loDig 0#32).toNat < 16 by decide) rfl rfl rfl rfl, rfl, h.md, h.j,
        by simp only [bg, h.j]; exact fr_of h.arch, (show BitVec.msb (carriesOf 4294967295#32 0#32 0#32) = _ by decide), h.ilc, by simp only [bg, h.lo]⟩
    | true =>
      refine Ev.plain (n := 0x10d) ho h.calm hr (by rw [w10d]; decide) (fun t => x10d e _ _)
        (fun t => by unfold memPart; rfl) fun t ht hc => .now ?_
      exact ⟨hae.updF hc h.arch rfl rfl (show (loDig 0#32).toNat < 16 by decide) rfl rfl rfl rfl, rfl, h.md, h.j,
        by simp only [bg, h.j]; exact fr_of h.arch, (show BitVec.msb (carriesOf 4294967295#32 0#32 0#32) = _ by decide), h.ilc, by simp only [bg, h.lo]⟩

/-- One of the two registers is none. -/
def noReg (i : BitVec 16) : Bool := !decide (fpReg (dig1 i)) || !decide (fpReg (dig2 i))

/-- The first word of the first operand has become `v`; its old value is in `R`. -/
structure Wrote (e : Env) (tk : Bool) (short : Bool) (a : Arch) (i : BitVec 16) (v : W) (n : Nat) (s : S) : Prop where
  ae : AtEnd e tk (a.putF (dig1 i) v) s
  fn : s.FN = 2#2
  md : s.MD = dig1 i
  j : s.J = dig2 i
  r : s.R = a.fr (dig1 i)
  il : s.ILC = 1#2
  roar : s.ROAR = n ||| 2 * (short || noReg i).toNat + (noReg i).toNat

theorem OpF.wrote {e : Env} {tk : Bool} {short : Bool} {a : Arch} {i : BitVec 16} {v : W} {n : Nat} {s s' : S}
    (h : OpF e tk short a i s) (hc : Calm e tk s') (ha : archOf s' = archOf { s with LS := s'.LS })
    (hl : s'.LS = lsPut s.LS (s.FN ++ s.MD) v) (hF : s'.F = s.F) (hi : s'.IVA = s.IVA) (hr : s'.REFETCH = s.REFETCH)
    (hs : s'.SYLS1 = s.SYLS1) (hn : s'.FN = s.FN) (hd : s'.MD = s.MD) (hj : s'.J = s.J) (hR : s'.R = s.LS (s.FN ++ s.MD))
    (hI : s'.ILC = s.ILC)
    (hro : s'.ROAR = n ||| 2 * (s.CAR || (s.MD &&& 9#4 != 0#4 || s.J &&& 9#4 != 0#4)).toNat +
      (s.MD &&& 9#4 != 0#4 || s.J &&& 9#4 != 0#4).toNat) : Wrote e tk short a i v n s' := by
  rw [h.fn, h.md] at hl hR
  have h1 := arch_putF ha hl
  rw [h.ae.arch] at h1
  refine ⟨h.ae.upd hc h1 rfl rfl hF hi hr ?_ hs, hn.trans h.fn, hd.trans h.md, hj.trans h.j, ?_, hI.trans h.il, ?_⟩
  · rw [hl, ls30F]
  · rw [hR]; exact fr_of h.ae.arch
  · rw [hro, h.car, h.md, h.j, fp_ok, fp_ok]; rfl

/-- Words 343 and 34f: no such register. -/
theorem wrote_bad {e : Env} {tk : Bool} {short : Bool} {a b : Arch} {i : BitVec 16} {v : W} {n : Nat} {s : S}
    (ho : EnvOk e) (h : Wrote e tk short a i v n s) (hn : n = 832 ∨ n = 844) (hbad : noReg i = true)
    (hk : a.Kept) (hm : 112 ≤ 4 * words e) (hb : b = interrupt a 0x28 6 1) (hw : tk = false → Quiet a b)
    (hi : InStore e b) : Ev e tk (Bd e tk b) s := by
  have hro := h.roar
  rw [hbad, Bool.or_true] at hro
  have key : ∀ s' : S, archOf s' = archOf { s with LS := s'.LS } → s'.LS = lsPut s.LS (s.FN ++ s.MD) s.R →
      archOf s' = a := by
    intro s' h1 h2
    rw [h.fn, h.md] at h2
    rw [arch_putF h1 h2, h.ae.arch, h.r]
    exact putF_back ..
  rcases hn with rfl | rfl
  · refine Ev.plain (n := 0x343) ho h.ae.calm hro (by rw [w343]; decide) (fun t => x343 e _ _)
      (fun t => by unfold memPart; rfl) fun t ht hc => ?_
    exact trap_exec (c := 6) ho ⟨hc, key _ rfl rfl⟩ rfl rfl h.il rfl hk hm hb hw hi
  · refine Ev.plain (n := 0x34f) ho h.ae.calm hro (by rw [w34f]; decide) (fun t => x34f e _ _)
      (fun t => by unfold memPart; rfl) fun t ht hc => ?_
    exact trap_exec (c := 6) ho ⟨hc, key _ rfl rfl⟩ rfl rfl h.il rfl hk hm hb hw hi

theorem low_word {a : Arch} {r q : BitVec 4} {v : W} (h : fpReg r) (hq : fpReg q) :
    (a.putF r v).fr (q + 1) = a.fr (q + 1) := if_neg (fp_ne h hq)

/-- LER and LDR, after word 320. -/
theorem load_tail {e : Env} {tk : Bool} {short : Bool} {a : Arch} {i : BitVec 16} {v : W} {s : S}
    (ho : EnvOk e) (h : Wrote e tk short a i v 844 s) (h1 : fpReg (dig1 i)) (h2 : fpReg (dig2 i)) (hi : InStore e a) :
    Ev e tk (Bd e tk (a.putFloat short (dig1 i) v (a.fr (dig2 i + 1)))) s := by
  have hro := h.roar
  have hg : noReg i = false := by unfold noReg; rw [decide_eq_true h1, decide_eq_true h2]; rfl
  rw [hg] at hro
  cases short with
  | true => exact end_a (n := 0x34e) ho h.ae (hi.same rfl) hro (by rw [w34e, w144])
  | false =>
    refine Ev.plain (n := 0x34c) ho h.ae.calm hro (by rw [w34c]; decide) (fun t => x34c e _ _)
      (fun t => by unfold memPart; rfl) fun t ht hc => ?_
    have hae := h.ae.upd hc h.ae.arch rfl rfl rfl rfl rfl rfl rfl
    refine Ev.wait (n := 0x2a0) ho hc rfl (by rw [w2a0]; decide) (by rw [w2a0]; decide)
      (fun tu sa ex => x2a0 e _ _) fun tu sa ex hex hc2 => ?_
    have hv : s.LS (2#2 ++ (dig2 i ||| 1#4)) = a.fr (dig2 i + 1) := by
      rw [fr_of h.ae.arch, fp_or h2, low_word h1 h2]
    refine end_b ho hae (hi.same rfl) hex hc2.qt rfl ?_ rfl rfl ?_ rfl rfl rfl rfl rfl rfl rfl rfl rfl
    · simp only [bg, h.fn, h.md, h.j, hv]
      show _ = (a.putF (dig1 i) v).putF (dig1 i + 1) _
      rw [← h.ae.arch]
      simp only [archOf, grF, frF, sysF, Arch.putF]; rfl
    · simp only [bg, h.fn, ls30F]

/-! ### The sign and the condition code -/

theorem carry24 (y : W) :
    (carriesOf (~~~y) (0#32) (topSum (~~~y) (0#32) (~~~y + 1#32) 0#32) &&& 8388608#32 != 0#32) =
      decide (y.extractLsb' 0 24 = 0) := by
  have hc : ∀ x : W, (x &&& 8388608#32 != 0#32) = x.getLsbD 23 := by
    intro x
    cases h1 : x.getLsbD 23 with
    | false =>
      have h1 : x[23] = false := by rw [← BitVec.getLsbD_eq_getElem]; exact h1
      have : x &&& 8388608#32 = 0#32 := by
        apply BitVec.eq_of_getLsbD_eq; intro i hi
        interval_cases i <;> simp [h1]
      rw [this]; rfl
    | true =>
      have h1 : x[23] = true := by rw [← BitVec.getLsbD_eq_getElem]; exact h1
      have : x &&& 8388608#32 = 8388608#32 := by
        apply BitVec.eq_of_getLsbD_eq; intro i hi
        interval_cases i <;> simp [h1]
      rw [this]; rfl
  rw [hc]
  have h1 : (carriesOf (~~~y) (0#32) (topSum (~~~y) (0#32) (~~~y + 1#32) 0#32)).getLsbD 23 =
      (!y.getLsbD 23 && !(~~~y + 1#32).getLsbD 23) := by
    simp [carriesOf, topSum]
  rw [h1, ← BitVec.neg_eq_not_add]
  have h2 : y.getLsbD 23 = y.toNat.testBit 23 := rfl
  have h3 : (-y).getLsbD 23 = (2 ^ 32 - y.toNat).testBit 23 := by
    show (-y).toNat.testBit 23 = _
    rw [BitVec.toNat_neg, Nat.testBit_mod_two_pow]; simp
  have h4 : (y.extractLsb' 0 24 = 0) ↔ y.toNat % 2 ^ 24 = 0 := by
    constructor
    · intro h
      have := congrArg BitVec.toNat h
      simpa using this
    · intro h
      apply BitVec.eq_of_toNat_eq
      simpa using h
  have h4d : decide (y.extractLsb' 0 24 = 0) = decide (y.toNat % 2 ^ 24 = 0) := decide_eq_decide.mpr h4
  have hy := y.isLt
  rw [h2, h3, h4d, Nat.testBit_eq_decide_div_mod_eq, Nat.testBit_eq_decide_div_mod_eq]
  by_cases h5 : y.toNat % 2 ^ 24 = 0
  · have h6 : ¬ y.toNat / 2 ^ 23 % 2 = 1 := by omega
    have h7 : ¬ (2 ^ 32 - y.toNat) / 2 ^ 23 % 2 = 1 := by omega
    simp only [h5, h6, h7, decide_false, decide_true]; rfl
  · by_cases h6 : y.toNat / 2 ^ 23 % 2 = 1
    · simp only [h5, h6, decide_false, decide_true]; rfl
    · have h7 : (2 ^ 32 - y.toNat) / 2 ^ 23 % 2 = 1 := by omega
      simp only [h5, h6, h7, decide_false, decide_true]; rfl

theorem carry32 (y : W) : BitVec.msb (carriesOf (~~~y) (0#32) (~~~y + 1#32)) = decide (y = 0) := by
  have h1 : BitVec.msb (carriesOf (~~~y) (0#32) (~~~y + 1#32)) = (!y.getLsbD 31 && !(~~~y + 1#32).getLsbD 31) := by
    rw [BitVec.msb_eq_getLsbD_last]
    simp [carriesOf]
  rw [h1, ← BitVec.neg_eq_not_add]
  have h2 : y.getLsbD 31 = y.toNat.testBit 31 := rfl
  have h3 : (-y).getLsbD 31 = (2 ^ 32 - y.toNat).testBit 31 := by
    show (-y).toNat.testBit 31 = _
    rw [BitVec.toNat_neg, Nat.testBit_mod_two_pow]; simp
  have h4 : (y = 0) ↔ y.toNat = 0 := by
    constructor
    · rintro rfl; rfl
    · intro h; exact BitVec.eq_of_toNat_eq h
  have h4d : decide (y = 0) = decide (y.toNat = 0) := decide_eq_decide.mpr h4
  have hy := y.isLt
  rw [h2, h3, h4d, Nat.testBit_eq_decide_div_mod_eq, Nat.testBit_eq_decide_div_mod_eq]
  by_cases h5 : y.toNat = 0
  · simp only [h5]; rfl
  · by_cases h6 : y.toNat / 2 ^ 31 % 2 = 1
    · simp only [h5, h6, decide_false, decide_true]; rfl
    · have h7 : (2 ^ 32 - y.toNat) / 2 ^ 31 % 2 = 1 := by omega
      simp only [h5, h6, h7, decide_false, decide_true]; rfl

theorem fz24 (y : W) : (y &&& 16777215#32 == 0#32) = decide (y.extractLsb' 0 24 = 0) := by
  have h4 : (y.extractLsb' 0 24 = 0) ↔ y.toNat % 2 ^ 24 = 0 := by
    constructor
    · intro h
      have := congrArg BitVec.toNat h
      simpa using this
    · intro h
      apply BitVec.eq_of_toNat_eq
      simpa using h
  have h4d : decide (y.extractLsb' 0 24 = 0) = decide (y.toNat % 2 ^ 24 = 0) := decide_eq_decide.mpr h4
  have h5 : (y &&& 16777215#32).toNat = y.toNat % 2 ^ 24 := by
    rw [BitVec.toNat_and]; exact Nat.and_two_pow_sub_one_eq_mod y.toNat 24
  rw [h4d, ← h5]
  by_cases h6 : y &&& 16777215#32 = 0#32
  · rw [h6]; rfl
  · have h7 : ¬ (y &&& 16777215#32).toNat = 0 := fun h => h6 (BitVec.eq_of_toNat_eq h)
    rw [decide_eq_false h7]; simpa using h6

/-- After the word which has set the sign. -/
structure Sgn (e : Env) (tk : Bool) (short : Bool) (a : Arch) (i : BitVec 16) (v : W) (s : S) : Prop where
  wr : Wrote e tk short a i v 832 s
  l : s.L = v
  t : s.aob &&& 16777215#32 = v &&& 16777215#32
  s4 : s.St.s4 = !v.msb

/-- Words 342, or 340 and 349, and the end. -/
theorem sgn_tail {e : Env} {tk : Bool} {short : Bool} {a : Arch} {i : BitVec 16} {v : W} {s : S}
    (ho : EnvOk e) (h : Sgn e tk short a i v s) (h1 : fpReg (dig1 i)) (h2 : fpReg (dig2 i)) (hi : InStore e a) :
    Ev e tk (Bd e tk ((a.putFloat short (dig1 i) v (a.fr (dig2 i + 1))).setCC
      (ccFloat v (if short then 0 else a.fr (dig2 i + 1))))) s := by
  have hro := h.wr.roar
  have hg : noReg i = false := by unfold noReg; rw [decide_eq_true h1, decide_eq_true h2]; rfl
  rw [hg] at hro
  have hcc : ∀ (z : Bool) (x : BitVec 2), (if (!z) = true then 2#2 else 1#2) = if z = true then 1 else 2 := by decide
  have zero : ∀ (b : Arch) (s : S), AtEnd e tk b s → InStore e b → s.ROAR = 0x347 →
      Ev e tk (Bd e tk (b.setCC 0)) s := by
    intro b s hb hi hr
    refine Ev.wait (n := 0x347) ho hb.calm hr (by rw [w347]; decide) (by rw [w347]; decide)
      (fun tu sa ex => x347 e _ _) fun tu sa ex hex hc2 => ?_
    refine end_b ho hb hi hex hc2.qt rfl ?_ rfl rfl rfl rfl rfl rfl rfl rfl rfl rfl rfl rfl
    rw [← hb.arch]; rfl
  have cc2 : ∀ (b : Arch) (x y : BitVec 2), (b.setCC x).setCC y = b.setCC y := fun b x y => rfl
  cases short with
  | true =>
    refine Ev.plain (n := 0x342) ho h.wr.ae.calm hro (by rw [w342]; decide) (fun t => x342 e _ _)
      (fun t => by unfold memPart; rfl) fun t ht hc => ?_
    have hae : AtEnd e tk ((a.putF (dig1 i) v).setCC (if v.msb then 1 else 2)) _ :=
      h.wr.ae.upd hc (by rw [← h.wr.ae.arch]; simp only [bg, h.s4, hcc _ 0#2]; rfl) rfl rfl rfl rfl rfl rfl rfl
    have hro2 : (836 ||| 2 + (s.aob &&& 16777215#32 == 0#32).toNat) = 836 ||| 2 + (decide (v.extractLsb' 0 24 = 0)).toNat := by
      rw [h.t, fz24]
    by_cases hz : v.extractLsb' 0 24 = 0
    · rw [decide_eq_true hz] at hro2
      have h3 : ccFloat v (if true = true then 0 else a.fr (dig2 i + 1)) = 0 := if_pos ⟨hz, rfl⟩
      rw [h3]
      have h5 := zero _ _ hae (hi.same rfl) hro2
      exact h5
    · rw [decide_eq_false hz] at hro2
      have h3 : ccFloat v (if true = true then 0 else a.fr (dig2 i + 1)) = if v.msb then 1 else 2 :=
        if_neg fun h => hz h.1
      rw [h3]
      exact end_a (n := 0x346) ho hae (hi.same rfl) hro2 (by rw [w346, w144])
  | false =>
    refine Ev.plain (n := 0x340) ho h.wr.ae.calm hro (by rw [w340]; decide) (fun t => x340 e _ _)
      (fun t => by unfold memPart; rfl) fun t ht hc => ?_
    have hae : AtEnd e tk ((a.putF (dig1 i) v).setCC (if v.msb then 1 else 2)) _ :=
      h.wr.ae.upd hc (by rw [← h.wr.ae.arch]; simp only [bg, h.s4, hcc _ 0#2]; rfl) rfl rfl rfl rfl rfl rfl rfl
    have hv : s.LS (2#2 ++ (dig2 i ||| 1#4)) = a.fr (dig2 i + 1) := by
      rw [fr_of h.wr.ae.arch, fp_or h2, low_word h1 h2]
    refine Ev.plain (n := 0x349) ho hc rfl (by rw [w349]; decide) (fun t => x349 e _ _)
      (fun t => by unfold memPart; rfl) fun t2 ht2 hc2 => ?_
    have hae2 : AtEnd e tk (((a.putF (dig1 i) v).putF (dig1 i + 1) (a.fr (dig2 i + 1))).setCC (if v.msb then 1 else 2)) _ :=
      hae.upd hc2 (by
        refine (arch_putF' (r := dig1 i + 1) (v := a.fr (dig2 i + 1)) hae.arch rfl ?_).trans rfl
        simp only [bg, h.wr.fn, h.wr.md, h.wr.j, fp_or h1, hv])
        rfl rfl rfl rfl rfl (by simp only [bg, h.wr.fn, ls30F]) rfl
    have hpf : a.putFloat false (dig1 i) v (a.fr (dig2 i + 1)) = (a.putF (dig1 i) v).putF (dig1 i + 1) (a.fr (dig2 i + 1)) := rfl
    rw [hpf]
    by_cases hz : v.extractLsb' 0 24 = 0
    · by_cases hz2 : a.fr (dig2 i + 1) = 0
      · have h3 : ccFloat v (if false = true then 0 else a.fr (dig2 i + 1)) = 0 := if_pos ⟨hz, hz2⟩
        rw [h3]
        have h5 := zero _ _ hae2 (hi.same rfl) (by simp only [bg, h.wr.fn, h.wr.j, hv, h.l, carry24, carry32, hz, hz2]; rfl)
        exact h5
      · have h3 : ccFloat v (if false = true then 0 else a.fr (dig2 i + 1)) = if v.msb then 1 else 2 :=
          if_neg fun h => hz2 h.2
        rw [h3]
        refine end_a (n := 0x346) ho hae2 (hi.same rfl) ?_ (by rw [w346, w144])
        simp only [bg, h.wr.fn, h.wr.j, hv, h.l, carry24, carry32, hz, hz2]; rfl
    · have h3 : ccFloat v (if false = true then 0 else a.fr (dig2 i + 1)) = if v.msb then 1 else 2 :=
        if_neg fun h => hz h.1
      rw [h3]
      refine end_a (n := 0x345) ho hae2 (hi.same rfl) ?_ (by rw [w345, w144])
      simp only [bg, h.wr.fn, h.wr.j, hv, h.l, carry24, carry32, hz]
      cases decide (a.fr (dig2 i + 1) = 0) <;> rfl

theorem sign0 (v : W) : withSign 0 v = v &&& 2147483647#32 := by
  unfold withSign
  apply BitVec.eq_of_getLsbD_eq; intro i hi
  simp only [BitVec.getLsbD_append]
  interval_cases i <;> simp

theorem sign1 (v : W) : withSign 1 v = v ||| 2147483648#32 := by
  unfold withSign
  apply BitVec.eq_of_getLsbD_eq; intro i hi
  simp only [BitVec.getLsbD_append]
  interval_cases i <;> simp

theorem sign2 (v : W) : withSign 2 v = v := by
  unfold withSign
  apply BitVec.eq_of_getLsbD_eq; intro i hi
  simp only [BitVec.getLsbD_append]
  interval_cases i <;> simp

theorem sign3 {v : W} (h : v.msb = false) : withSign 3 v = v ||| 2147483648#32 := by
  have h : v[31] = false := by rw [← BitVec.getLsbD_eq_getElem]; exact h
  unfold withSign
  apply BitVec.eq_of_getLsbD_eq; intro i hi
  simp only [BitVec.getLsbD_append]
  interval_cases i <;> simp [h]

theorem sign3' {v : W} (h : v.msb = true) : withSign 3 v = v &&& 2147483647#32 := by
  have h : v[31] = true := by rw [← BitVec.getLsbD_eq_getElem]; exact h
  unfold withSign
  apply BitVec.eq_of_getLsbD_eq; intro i hi
  simp only [BitVec.getLsbD_append]
  interval_cases i <;> simp [h]

theorem msb_and (v : W) : (v &&& 2147483647#32).msb = false := by
  rw [BitVec.msb_and]; exact Bool.and_false _

theorem msb_or (v : W) : (v ||| 2147483648#32).msb = true := by
  rw [BitVec.msb_or]; exact Bool.or_true _

/-- LPER, LNER, LTER, LCER and the long ones. -/
theorem to_sgn {e : Env} {tk : Bool} {short : Bool} {a : Arch} {i : BitVec 16} {s : S} (ho : EnvOk e)
    (h : OpF e tk short a i s) (hk : (opOf i).toNat % 16 < 4) :
    Ev e tk (Sgn e tk short a i (withSign ((opOf i).toNat % 16) (a.fr (dig2 i)))) s := by
  have hro := h.roar
  rw [← h.l]
  have hc4 : (opOf i).toNat % 16 = 0 ∨ (opOf i).toNat % 16 = 1 ∨ (opOf i).toNat % 16 = 2 ∨ (opOf i).toNat % 16 = 3 := by omega
  rcases hc4 with hk | hk | hk | hk <;> rw [hk] at hro ⊢
  · rw [sign0]
    refine Ev.plain (n := 0x300) ho h.ae.calm hro (by rw [w300]; decide) (fun t => x300 e _ _)
      (fun t => by unfold memPart; rfl) fun t ht hc => .now ?_
    exact ⟨h.wrote hc rfl rfl rfl rfl rfl rfl rfl rfl rfl rfl rfl rfl, rfl, rfl, by rw [msb_and]; rfl⟩
  · rw [sign1]
    refine Ev.plain (n := 0x304) ho h.ae.calm hro (by rw [w304]; decide) (fun t => x304 e _ _)
      (fun t => by unfold memPart; rfl) fun t ht hc => .now ?_
    exact ⟨h.wrote hc rfl rfl rfl rfl rfl rfl rfl rfl rfl rfl rfl rfl, rfl, rfl, by rw [msb_or]; rfl⟩
  · rw [sign2]
    refine Ev.plain (n := 0x308) ho h.ae.calm hro (by rw [w308]; decide) (fun t => x308 e _ _)
      (fun t => by unfold memPart; rfl) fun t ht hc => ?_
    rcases Bool.eq_false_or_eq_true s.L.msb with hm | hm
    · refine Ev.plain (n := 0x1bf) ho hc (by simp only [bg, hm]; rfl) (by rw [w1bf]; decide) (fun t => x1bf e _ _)
        (fun t => by unfold memPart; rfl) fun t2 ht2 hc2 => .now ?_
      exact ⟨h.wrote hc2 rfl rfl rfl rfl rfl rfl rfl rfl rfl rfl rfl rfl, rfl, rfl, by rw [hm]; rfl⟩
    · refine Ev.plain (n := 0x1bd) ho hc (by simp only [bg, hm]; rfl) (by rw [w1bd]; decide) (fun t => x1bd e _ _)
        (fun t => by unfold memPart; rfl) fun t2 ht2 hc2 => .now ?_
      exact ⟨h.wrote hc2 rfl rfl rfl rfl rfl rfl rfl rfl rfl rfl rfl rfl, rfl, rfl, by rw [hm]; rfl⟩
  · refine Ev.plain (n := 0x30c) ho h.ae.calm hro (by rw [w30c]; decide) (fun t => x30c e _ _)
      (fun t => by unfold memPart; rfl) fun t ht hc => ?_
    rcases Bool.eq_false_or_eq_true s.L.msb with hm | hm
    · rw [sign3' hm]
      refine Ev.plain (n := 0x9d3) ho hc (by simp only [bg, hm]; rfl) (by rw [w9d3]; decide) (fun t => x9d3 e _ _)
        (fun t => by unfold memPart; rfl) fun t2 ht2 hc2 => .now ?_
      exact ⟨h.wrote hc2 rfl rfl rfl rfl rfl rfl rfl rfl rfl rfl rfl rfl, rfl, rfl, by rw [msb_and]; rfl⟩
    · rw [sign3 hm]
      refine Ev.plain (n := 0x9d1) ho hc (by simp only [bg, hm]; rfl) (by rw [w9d1]; decide) (fun t => x9d1 e _ _)
        (fun t => by unfold memPart; rfl) fun t2 ht2 hc2 => .now ?_
      exact ⟨h.wrote hc2 rfl rfl rfl rfl rfl rfl rfl rfl rfl rfl rfl rfl, rfl, rfl, by rw [msb_or]; rfl⟩

theorem to_load {e : Env} {tk : Bool} {short : Bool} {a : Arch} {i : BitVec 16} {s : S} (ho : EnvOk e)
    (h : OpF e tk short a i s) (hk : (opOf i).toNat % 16 = 8) :
    Ev e tk (Wrote e tk short a i (a.fr (dig2 i)) 844) s := by
  have hro := h.roar
  rw [← h.l]
  rw [hk] at hro
  refine Ev.plain (n := 0x320) ho h.ae.calm hro (by rw [w320]; decide) (fun t => x320 e _ _)
    (fun t => by unfold memPart; rfl) fun t ht hc => .now ?_
  exact h.wrote hc rfl rfl rfl rfl rfl rfl rfl rfl rfl rfl rfl rfl

/-! ### The theorems -/

/-- C169: LPDR, LNDR, LTDR, LCDR, LDR and LPER, LNER, LTER, LCER, LER with floating-point registers. -/
theorem C169_float_load {e : Env} {tk : Bool} {a : Arch} {s : S} (ho : EnvOk e)
    (h : Ready e tk a s) (hia : InStore e a)
    (hop : (opOf a.inst).toNat / 16 = 2 ∨ (opOf a.inst).toNat / 16 = 3)
    (hk : (opOf a.inst).toNat % 16 < 4 ∨ (opOf a.inst).toNat % 16 = 8)
    (h1 : fpReg (dig1 a.inst)) (h2 : fpReg (dig2 a.inst)) (hi : InStore e a.next)
    (tick : Nat → Bool) (ht : ∀ i, tick i = true → tk = true) :
    ∃ n s', run e tick n s = .ok s' ∧
      (Ready e tk (a.next.floatLoad (decide ((opOf a.inst).toNat / 16 = 3)) ((opOf a.inst).toNat % 16)
        (dig1 a.inst) (dig2 a.inst)) s' ∨
       Pend e tk (a.next.floatLoad (decide ((opOf a.inst).toNat / 16 = 3)) ((opOf a.inst).toNat % 16)
        (dig1 a.inst) (dig2 a.inst)) s') := by
  refine Ev.run ?_ tick ht
  refine Ev.bind (fetch_rr ho h (by omega) hia.rg) fun s1 f1 => Ev.bind (to_opF ho f1 hop) fun s2 f2 => ?_
  rw [next2 (by omega)] at hi ⊢
  unfold Arch.floatLoad
  rcases hk with hk | hk
  · rw [if_neg (by omega)]
    exact Ev.bind (to_sgn ho f2 hk) fun s3 f3 => sgn_tail ho f3 h1 h2 hi
  · rw [if_pos hk]
    exact Ev.bind (to_load ho f2 hk) fun s3 f3 => load_tail ho f3 h1 h2 hi

/-- C169: the same instructions with another register are suppressed; a program interruption with the code 6 follows. -/
theorem C169_specification {e : Env} {tk : Bool} {a b : Arch} {s : S} (ho : EnvOk e)
    (h : Ready e tk a s) (hia : InStore e a) (hk : a.Kept) (hm : 112 ≤ 4 * words e)
    (hop : (opOf a.inst).toNat / 16 = 2 ∨ (opOf a.inst).toNat / 16 = 3)
    (hk2 : (opOf a.inst).toNat % 16 < 4 ∨ (opOf a.inst).toNat % 16 = 8)
    (h12 : ¬ (fpReg (dig1 a.inst) ∧ fpReg (dig2 a.inst)))
    (hb : b = interrupt a.next 0x28 6 1) (hw : tk = false → Quiet a b) (hi : InStore e b)
    (tick : Nat → Bool) (ht : ∀ i, tick i = true → tk = true) :
    ∃ n s', run e tick n s = .ok s' ∧ (Ready e tk b s' ∨ Pend e tk b s') := by
  refine Ev.run ?_ tick ht
  refine Ev.bind (fetch_rr ho h (by omega) hia.rg) fun s1 f1 => Ev.bind (to_opF ho f1 hop) fun s2 f2 => ?_
  rw [next2 (by omega)] at hb
  have hn : noReg a.inst = true := by
    unfold noReg
    by_cases h3 : fpReg (dig1 a.inst)
    · rw [decide_eq_false fun h4 => h12 ⟨h3, h4⟩, Bool.not_false, Bool.or_true]
    · rw [decide_eq_false h3]; rfl
  rcases hk2 with hk2 | hk2
  · exact Ev.bind (to_sgn ho f2 hk2) fun s3 f3 => wrote_bad ho f3.wr (.inl rfl) hn hk hm hb hw hi
  · exact Ev.bind (to_load ho f2 hk2) fun s3 f3 => wrote_bad ho f3 (.inr rfl) hn hk hm hb hw hi

/-- At 100: the instruction `w`. -/
def floatMem (w : W) (i : Nat) : W := if i = 64 then w else if i = 27 then 0x200 else 0

/-- The processor at 100 with the long number `x`, `y` in floating-point register 4. -/
def startFloat (w x y : W) : S :=
  { start (floatMem w) 0 (fun _ => 0) with
    LS := fun k => if k = 2#2 ++ 4#4 then x else if k = 2#2 ++ 5#4 then y else 0 }

/-- Its registers and storage. -/
def archFloat (w x y : W) : Arch :=
  { arch0 (floatMem w) 0 (fun _ => 0) with fr := fun r => if r = 4 then x else if r = 5 then y else 0 }

theorem ready_float (w x y : W) : Ready e64 true (archFloat w x y) (startFloat w x y) := by
  refine .even ⟨rfl, rfl, rfl, ?_, (fun h => nomatch h), fun h => nomatch h⟩ ?_ (.inl rfl) ?_ ?_ ?_
  · show (0x100#32).toNat ≤ _
    decide
  · show (0#8).toNat < 16
    decide
  · have h1 : (fun r : BitVec 4 => (startFloat w x y).LS (2#2 ++ r)) = fun r => if r = 4 then x else if r = 5 then y else 0 := by
      funext r
      have k4 : ∀ r : BitVec 4, ((2#2 ++ r : BitVec 6) = 2#2 ++ 4#4) ↔ r = 4 := by decide
      have k5 : ∀ r : BitVec 4, ((2#2 ++ r : BitVec 6) = 2#2 ++ 5#4) ↔ r = 5 := by decide
      show (if (2#2 ++ r : BitVec 6) = 2#2 ++ 4#4 then x else if (2#2 ++ r : BitVec 6) = 2#2 ++ 5#4 then y else 0) = _
      simp only [k4, k5]
    have h2 : (fun r : BitVec 4 => (startFloat w x y).LS (3#2 ++ r)) = fun _ => (0 : W) := by
      funext r
      have k4 : ∀ r : BitVec 4, ¬ (3#2 ++ r : BitVec 6) = 2#2 ++ 4#4 := by decide
      have k5 : ∀ r : BitVec 4, ¬ (3#2 ++ r : BitVec 6) = 2#2 ++ 5#4 := by decide
      exact (if_neg (k4 r)).trans (if_neg (k5 r))
    unfold archOf
    rw [h1, h2]
    rfl
  · show (0x100#32).toNat % 4 = 0
    decide
  · show (0x100#32).toNat / 4 = (0x100#32).toNat / 4
    rfl

/-- `LCDR 2,4` of 1. -/
example (tick : Nat → Bool) : ∃ n s', run e64 tick n (startFloat 0x23240000 0x41100000 7) = .ok s' ∧
    ∃ b : Arch, (b.fr 2 = 0xc1100000 ∧ b.fr 3 = 7 ∧ b.fr 4 = 0x41100000 ∧ b.cc = 1 ∧ b.ia = 0x102) ∧
      (Ready e64 true b s' ∨ Pend e64 true b s') := by
  obtain ⟨n, s', h1, h2⟩ := C169_float_load e64_ok (ready_float 0x23240000 0x41100000 7) ⟨by decide, by decide⟩ (by decide)
    (by decide) (by decide) (by decide) ⟨by decide, by decide⟩ tick (by simp)
  exact ⟨n, s', h1, _, by decide, h2⟩

/-- `LTER 6,4`: the fraction of the short number is zero, and its second word stays. -/
example (tick : Nat → Bool) : ∃ n s', run e64 tick n (startFloat 0x32640000 0x81000000 7) = .ok s' ∧
    ∃ b : Arch, (b.fr 6 = 0x81000000 ∧ b.fr 7 = 0 ∧ b.cc = 0 ∧ b.ia = 0x102) ∧
      (Ready e64 true b s' ∨ Pend e64 true b s') := by
  obtain ⟨n, s', h1, h2⟩ := C169_float_load e64_ok (ready_float 0x32640000 0x81000000 7) ⟨by decide, by decide⟩ (by decide)
    (by decide) (by decide) (by decide) ⟨by decide, by decide⟩ tick (by simp)
  exact ⟨n, s', h1, _, by decide, h2⟩

/-- `LER 3,4`. -/
example (tick : Nat → Bool) : ∃ n s', run e64 tick n (startFloat 0x38340000 0x41100000 7) = .ok s' ∧
    ∃ b : Arch, (b.fr 3 = 0 ∧ b.mem 10 = 6 ∧ b.mem 11 = 0x40000102 ∧ b.ia = 0x200) ∧
      (Ready e64 true b s' ∨ Pend e64 true b s') := by
  obtain ⟨n, s', h1, h2⟩ := C169_specification e64_ok (ready_float 0x38340000 0x41100000 7) ⟨by decide, by decide⟩
    (by unfold Arch.Kept; decide) (by decide) (by decide) (by decide) (by decide) rfl
    (fun h => nomatch h) ⟨by decide, by decide⟩ tick (by simp)
  exact ⟨n, s', h1, _, by decide, h2⟩

end Verif.Cpu50
