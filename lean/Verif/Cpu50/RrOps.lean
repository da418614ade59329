import Verif.Cpu50.Rr

/-!
# Model 2050: every RR instruction of the specification

`rr_exec`: from the first microinstruction of an RR operation the processor reaches the fetch
of the next instruction, with the registers the specification gives.
-/

namespace Verif.Cpu50
open Verif.S360
attribute [local irreducible] ros

theorem Fet.atEnd {e : Env} {tk : Bool} {a : Arch} {i : BitVec 16} {s : S} (h : Fet e tk a i s) :
    AtEnd e tk a s := ⟨h.calm, h.arch, h.f, h.iva, h.odd⟩

/-- First microinstruction of an RR operation, `k` being the instruction length of the PSW: 1, or 2 if the
operation is the subject of an EXECUTE. -/
structure FetR (e : Env) (tk : Bool) (k : BitVec 2) (a : Arch) (i : BitVec 16) (s : S) : Prop extends
    Fet e tk a i s where
  ilc : s.ILC = k
  roar : ∃ b : Bool, s.ROAR = 0x100 ||| ((opOf i).toNat / 16) <<< 2 ||| b.toNat
  m1 : s.M.extractLsb' 16 16 = i

theorem FetRR.r {e : Env} {tk : Bool} {a : Arch} {i : BitVec 16} {s : S} (h : FetRR e tk a i s) :
    FetR e tk 1 a i s := ⟨h.toFet, h.ilc, h.roar, h.m1⟩

/-- The second operand is in `L`. -/
structure Op1 (e : Env) (tk : Bool) (a : Arch) (i : BitVec 16) (s : S) : Prop where
  ae : AtEnd e tk a s
  fn : s.FN = 3#2
  bs : s.BS = 15#4
  mb : s.MB = 3#2
  md : s.MD = dig1 i
  l : s.L = a.gr (dig2 i)
  roar : s.ROAR = 640 ||| ((opOf i).toNat % 16) <<< 2

theorem to_op1 {e : Env} {tk : Bool} {k : BitVec 2} {a : Arch} {i : BitVec 16} {s : S} (ho : EnvOk e)
    (h : FetR e tk k a i s) (hop : (opOf i).toNat / 16 = 1) : Ev e tk (Op1 e tk a i) s := by
  obtain ⟨b, hr⟩ := h.roar
  rw [hop] at hr
  have key : ∀ n, s.ROAR = n → Cpu50.ros n = Cpu50.ros 0x104 → Ev e tk (Op1 e tk a i) s := by
    intro n hn hw
    refine Ev.plain ho h.calm hn (by rw [hw, w104]; decide)
      (fun t => by rw [hw]; exact x104 e _ _)
      (fun t => by unfold memPart; rfl) fun t ht hc => .now ?_
    exact {
      ae := h.atEnd.upd hc h.arch rfl rfl rfl rfl rfl rfl rfl
      fn := h.fn
      bs := h.bs
      mb := h.mb
      md := h.md
      l := by
        simp only [bg, h.j]
        rw [show s.FN = 3#2 from h.fn, gr_of h.arch]
      roar := by simp only [bg, h.lo] }
  cases b with
  | false => exact key 0x104 hr rfl
  | true => exact key 0x105 hr (by rw [w105, w104])

theorem md_f (m : BitVec 4) (f : B) (hf : f.toNat < 16) :
    BitVec.setWidth 4 ((BitVec.setWidth 8 m <<< 4 ||| f) >>> 4) = m := by
  have h : f >>> 4 = 0#8 := by
    apply BitVec.eq_of_toNat_eq
    simp [Nat.shiftRight_eq_div_pow]; omega
  rw [BitVec.ushiftRight_or_distrib, h]
  apply BitVec.eq_of_getLsbD_eq; intro i hi
  interval_cases i <;> simp

/-- The branch address is in `R`. -/
structure Op0k (e : Env) (tk : Bool) (k : BitVec 2) (a : Arch) (i : BitVec 16) (s : S) : Prop where
  ae : AtEnd e tk a s
  fn : s.FN = 3#2
  bs : s.BS = 15#4
  mb : s.MB = 0#2
  lb : s.LB = 1#2
  md : s.MD = dig1 i
  j : s.J = dig2 i
  m1 : s.M.extractLsb' 16 16 = i
  il : s.ILC = k
  r : s.R = a.gr (dig2 i)
  h : s.H &&& 16777215#32 = a.ia &&& 16777215#32
  s0 : s.St.s0 = (dig2 i == 0)
  roar : s.ROAR = 384 ||| ((opOf i).toNat % 16) <<< 2 ||| 2

abbrev Op0 (e : Env) (tk : Bool) (a : Arch) (i : BitVec 16) (s : S) : Prop := Op0k e tk 1 a i s

theorem low24 (h ia : W) :
    (h &&& 4278190080#32 ||| ia &&& 16777215#32) &&& 16777215#32 = ia &&& 16777215#32 := by
  apply BitVec.eq_of_getLsbD_eq; intro i hi
  interval_cases i <;> simp

theorem to_op0k {e : Env} {tk : Bool} {k : BitVec 2} {a : Arch} {i : BitVec 16} {s : S} (ho : EnvOk e)
    (h : FetR e tk k a i s) (hop : (opOf i).toNat / 16 = 0) : Ev e tk (Op0k e tk k a i) s := by
  obtain ⟨b, hr⟩ := h.roar
  rw [hop] at hr
  have key : ∀ n, s.ROAR = n → Cpu50.ros n = Cpu50.ros 0x100 → Ev e tk (Op0k e tk k a i) s := by
    intro n hn hw
    refine Ev.plain ho h.calm hn (by rw [hw, w100]; decide)
      (fun t => by rw [hw]; exact x100 e _ _)
      (fun t => by unfold memPart; rfl) fun t ht hc => .now ?_
    exact {
      ae := h.atEnd.upd hc h.arch rfl rfl rfl rfl rfl rfl rfl
      fn := h.fn
      bs := h.bs
      mb := rfl
      lb := h.lb
      md := h.md
      j := h.j
      m1 := h.m1
      il := h.ilc
      r := by
        simp only [bg, h.j]
        rw [show s.FN = 3#2 from h.fn, gr_of h.arch]
      h := by
        simp only [bg]
        rw [low24, ← h.arch]; rfl
      s0 := h.s0
      roar := by simp only [bg, h.lo] }
  cases b with
  | false => exact key 0x100 hr rfl
  | true => exact key 0x101 hr (by rw [w101, w100])

theorem to_op0 {e : Env} {tk : Bool} {a : Arch} {i : BitVec 16} {s : S} (ho : EnvOk e)
    (h : FetRR e tk a i s) (hop : (opOf i).toNat / 16 = 0) : Ev e tk (Op0 e tk a i) s := to_op0k ho h.r hop

/-- Op codes 10-1f. -/
theorem op1_exec {e : Env} {tk : Bool} {a a' : Arch} {i : BitVec 16} {s : S} (ho : EnvOk e)
    (h : Op1 e tk a i s) (hop : (opOf i).toNat / 16 = 1)
    (hv : rr a (opOf i) (dig1 i) (dig2 i) = some a') (hi : InStore e a) :
    Ev e tk (Bd e tk a') s := by
  have hro := h.roar
  have hl := h.l
  have hr1 : ∀ s' : S, s'.LS = s.LS → s'.FN = s.FN → s'.MD = s.MD →
      s'.LS (s'.FN ++ s'.MD) = a.gr (dig1 i) := by
    intro s' h1 h2 h3
    rw [h1, h2, h3, h.fn, h.md, gr_of h.ae.arch]
  unfold rr at hv
  split at hv <;> rename_i heq <;>
    first
      | (rw [heq] at hop hro
         first
           | exact absurd hop (by decide)
           | skip)
      | exact nomatch hv
  · rw [← hl] at hv; exact lpr_tail ho h.ae hi hro h.fn h.md hv
  · rw [← hl] at hv; exact lnr_tail ho h.ae hi hro h.fn h.md hv
  · rw [← hl, fixed_fits (fits_toInt _), BitVec.ofInt_toInt] at hv
    obtain rfl := Option.some.inj hv
    exact ltr_tail ho h.ae hi hro h.fn h.md
  · rw [← hl] at hv; exact lcr_tail ho h.ae hi hro h.fn h.md hv
  · obtain rfl := Option.some.inj hv
    refine Ev.plain (n := 0x290) ho h.ae.calm hro (by rw [w290]; decide) (fun t => x290 e _ _)
      (fun t => by unfold memPart; rfl) fun t ht hc => ?_
    obtain rfl := h.ae.arch
    rw [← hl, ← hr1 s rfl rfl rfl]
    exact logic_tail (a := archOf s) ho (h.ae.upd hc rfl rfl rfl rfl rfl rfl rfl rfl) hi rfl h.fn h.md
      (by simp only [bg, h.mb]; rfl) (.inr (.inl rfl))
  · obtain rfl := Option.some.inj hv
    refine Ev.plain (n := 0x294) ho h.ae.calm hro (by rw [w294]; decide) (fun t => x294 e _ _)
      (fun t => by unfold memPart; rfl) fun t ht hc => ?_
    obtain rfl := h.ae.arch
    rw [← hl, ← hr1 s rfl rfl rfl]
    exact clr_tail (a := archOf s) ho (h.ae.upd hc rfl rfl rfl rfl rfl rfl rfl rfl) hi rfl h.bs
  · obtain rfl := Option.some.inj hv
    refine Ev.plain (n := 0x298) ho h.ae.calm hro (by rw [w298]; decide) (fun t => x298 e _ _)
      (fun t => by unfold memPart; rfl) fun t ht hc => ?_
    obtain rfl := h.ae.arch
    rw [← hl, ← hr1 s rfl rfl rfl]
    exact logic_tail (a := archOf s) ho (h.ae.upd hc rfl rfl rfl rfl rfl rfl rfl rfl) hi rfl h.fn h.md
      (by simp only [bg, h.mb]; rfl) (.inl rfl)
  · obtain rfl := Option.some.inj hv
    refine Ev.plain (n := 0x29c) ho h.ae.calm hro (by rw [w29c]; decide) (fun t => x29c e _ _)
      (fun t => by unfold memPart; rfl) fun t ht hc => ?_
    obtain rfl := h.ae.arch
    rw [← hl, ← hr1 s rfl rfl rfl]
    exact logic_tail (a := archOf s) ho (h.ae.upd hc rfl rfl rfl rfl rfl rfl rfl rfl) hi rfl h.fn h.md
      (by simp only [bg, h.mb]; rfl) (.inr (.inr rfl))
  · obtain rfl := Option.some.inj hv
    rw [← hl]; exact lr_tail ho h.ae hi hro h.fn h.md
  · obtain rfl := Option.some.inj hv
    refine Ev.plain (n := 0x2a4) ho h.ae.calm hro (by rw [w2a4]; decide) (fun t => x2a4 e _ _)
      (fun t => by unfold memPart; rfl) fun t ht hc => ?_
    obtain rfl := h.ae.arch
    rw [← hl, ← hr1 s rfl rfl rfl]
    exact cmp_tail (a := archOf s) ho (h.ae.upd hc rfl rfl rfl rfl rfl rfl rfl rfl) hi rfl 
  · refine Ev.plain (n := 0x2a8) ho h.ae.calm hro (by rw [w2a8]; decide) (fun t => x2a8 e _ _)
      (fun t => by unfold memPart; rfl) fun t ht hc => ?_
    obtain rfl := h.ae.arch
    rw [← hl, ← hr1 s rfl rfl rfl] at hv
    exact add_tail (a := archOf s) (r := dig1 i) ho (h.ae.upd hc rfl rfl rfl rfl rfl rfl rfl rfl) hi rfl h.fn
      (by simp only [bg]; rw [md_f _ _ h.ae.f]; exact h.md) rfl hv
  · refine Ev.plain (n := 0x2ac) ho h.ae.calm hro (by rw [w2ac]; decide) (fun t => x2ac e _ _)
      (fun t => by unfold memPart; rfl) fun t ht hc => ?_
    obtain rfl := h.ae.arch
    rw [← hl, ← hr1 s rfl rfl rfl] at hv
    exact sub_tail (a := archOf s) (r := dig1 i) ho (h.ae.upd hc rfl rfl rfl rfl rfl rfl rfl rfl) hi rfl h.fn
      (by simp only [bg]; rw [md_f _ _ h.ae.f]; exact h.md) rfl hv
  · obtain rfl := Option.some.inj hv
    refine Ev.plain (n := 0x2b8) ho h.ae.calm hro (by rw [w2b8]; decide) (fun t => x2b8 e _ _)
      (fun t => by unfold memPart; rfl) fun t ht hc => ?_
    obtain rfl := h.ae.arch
    rw [← hl, ← hr1 s rfl rfl rfl]
    exact al_tail (a := archOf s) ho (h.ae.upd hc rfl rfl rfl rfl rfl rfl rfl rfl) hi rfl h.fn h.md
  · obtain rfl := Option.some.inj hv
    refine Ev.plain (n := 0x2bc) ho h.ae.calm hro (by rw [w2bc]; decide) (fun t => x2bc e _ _)
      (fun t => by unfold memPart; rfl) fun t ht hc => ?_
    obtain rfl := h.ae.arch
    rw [← hl, ← hr1 s rfl rfl rfl]
    exact sl_tail (a := archOf s) ho (h.ae.upd hc rfl rfl rfl rfl rfl rfl rfl rfl) hi rfl h.fn h.md

theorem sel_eq : ∀ (m : BitVec 4) (c : BitVec 2),
    (m &&& 8#4 >>> c.toNat != 0#4) = selected m c := by decide

/-- BRANCH AND LINK, with the instruction length `k` in the link. -/
theorem balr_exec {e : Env} {tk : Bool} {k : BitVec 2} {a : Arch} {i : BitVec 16} {s : S} (ho : EnvOk e)
    (h : Op0k e tk k a i s) (heq : (opOf i).toNat = 0x05)
    (hi : InStore e (if dig2 i = 0 then a.put (dig1 i) (link a k) else (a.put (dig1 i) (link a k)).jump (a.gr (dig2 i)))) :
    Ev e tk (Bd e tk (if dig2 i = 0 then a.put (dig1 i) (link a k) else (a.put (dig1 i) (link a k)).jump (a.gr (dig2 i)))) s := by
  refine Ev.plain (n := 0x196) ho h.ae.calm (by rw [h.roar, heq]; rfl) (by rw [w196]; decide) (fun t => x196 e _ _)
    (fun t => by unfold memPart; rfl) fun t ht hc => ?_
  have hae := h.ae.upd hc h.ae.arch rfl rfl rfl rfl rfl rfl rfl
  have hil : s.ILC = k := h.il
  have hlk := link_eq s.M s.H s.ILC s.CC s.PMASK a.ia s.MB h.h h.mb
  have hcc : s.CC = a.cc := by rw [← h.ae.arch]; rfl
  have hpm : s.PMASK = a.pm := by rw [← h.ae.arch]; rfl
  rw [show s.ILC = k from hil, hcc, hpm] at hlk
  have hgr : s.LS (s.FN ++ s.J) = a.gr (dig2 i) := by rw [h.fn, h.j, gr_of h.ae.arch]
  by_cases h0 : dig2 i = 0
  · rw [if_pos h0] at hi ⊢
    have hs0 : s.St.s0 = true := by rw [h.s0, h0]; rfl
    refine Ev.wait (n := 0x10b) ho hc (by simp only [bg, hs0]; rfl) (by rw [w10b]; decide)
      (by rw [w10b]; decide)
      (fun tu sa ex => x10b e _ _) fun tu sa ex hex hc2 => ?_
    obtain rfl := h.ae.arch
    refine end_b ho hae (hi.same rfl) hex hc2.qt rfl ?_ rfl rfl ?_ rfl rfl rfl rfl rfl rfl rfl rfl rfl
    · simp only [archOf, bg, h.fn, h.md, gr_put, fr_put, sys_put, Arch.put]
      rw [show s.ILC = k from hil]
      simp only [archOf] at hlk
      rw [hlk]; rfl
    · simp only [bg, h.fn, ls30_put]
  · rw [if_neg h0] at hi ⊢
    have hs0 : s.St.s0 = false := by rw [h.s0]; simpa using h0
    rw [← hgr] at hi ⊢
    refine bal_tail ho hae (hi.same rfl) (by simp only [bg, hs0]; rfl) h.fn h.md ?_
    simp only [bg]
    rw [show s.ILC = k from hil, hcc, hpm]
    exact hlk

/-- Op codes 04-07. -/
theorem op0_exec {e : Env} {tk : Bool} {k : BitVec 2} {a a' : Arch} {i : BitVec 16} {s : S} (ho : EnvOk e)
    (h : Op0k e tk k a i s) (hop : (opOf i).toNat / 16 = 0) (hk : (opOf i).toNat = 0x05 → k = 1)
    (hv : rr a (opOf i) (dig1 i) (dig2 i) = some a') (hi : InStore e a') :
    Ev e tk (Bd e tk a') s := by
  have hro := h.roar
  have hR := h.r
  unfold rr at hv
  split at hv <;> rename_i heq <;>
    first
      | (rw [heq] at hop hro
         first
           | exact absurd hop (by decide)
           | skip)
      | exact nomatch hv
  · obtain rfl := Option.some.inj hv
    refine Ev.plain (n := 0x192) ho h.ae.calm hro (by rw [w192]; decide) (fun t => x192 e _ _)
      (fun t => by unfold memPart; rfl) fun t ht hc => ?_
    have hae := h.ae.upd hc h.ae.arch rfl rfl rfl rfl rfl rfl rfl
    refine Ev.wait (n := 0x126) ho hc rfl (by rw [w126]; decide) (by rw [w126]; decide)
      (fun tu sa ex => x126 e _ _) fun tu sa ex hex hc2 => .now ?_
    refine end_c ho hae (hi.same rfl) hex ?_ rfl ?_ rfl rfl rfl rfl rfl rfl rfl rfl rfl rfl
    · intro h1
      have h2 := hc2.qt h1
      simp only [exc, bg, Bool.or_eq_false_iff, Bool.and_eq_false_iff] at h2 ⊢
      obtain ⟨⟨h3, h4⟩, h5⟩ := h2
      refine ⟨⟨h3, h4⟩, ?_⟩
      rcases h5 with h5 | ⟨⟨h5, h6⟩, h7⟩
      · exact .inl h5
      · refine .inr ⟨⟨.inl h5, ?_⟩, h7⟩
        rcases h6 with ⟨h6, h8⟩ | h6
        · exact .inl ⟨h6, .inl h8⟩
        · exact .inr h6
    · obtain rfl := h.ae.arch
      have hg : s.LS (s.FN ++ s.MD) = (archOf s).gr (dig1 i) := by
        rw [h.fn, h.md]; rfl
      simp only [bg, hg]
      generalize (archOf s).gr (dig1 i) = x
      have h1 : BitVec.setWidth 4 (byteOf x 0#2) = x.extractLsb' 24 4 := by
        apply BitVec.eq_of_getLsbD_eq; intro i hi
        interval_cases i <;> simp [byteOf]
      have h2 : BitVec.setWidth 2 (byteOf x 0#2 >>> 4) = x.extractLsb' 28 2 := by
        apply BitVec.eq_of_getLsbD_eq; intro i hi
        interval_cases i <;> simp [byteOf]
      rw [← h1, ← h2]; rfl
  · obtain rfl := Option.some.inj hv
    obtain rfl := hk heq
    exact balr_exec ho h heq hi
  · obtain rfl := Option.some.inj hv
    refine Ev.plain (n := 0x19a) ho h.ae.calm hro (by rw [w19a]; decide) (fun t => x19a e _ _)
      (fun t => by unfold memPart; rfl) fun t ht hc => ?_
    have hae := h.ae.upd hc h.ae.arch rfl rfl rfl rfl rfl rfl rfl
    have hgr : s.LS (s.FN ++ s.MD) = a.gr (dig1 i) := by rw [h.fn, h.md, gr_of h.ae.arch]
    refine bct_tail (r := dig1 i) ho hae hi rfl h.fn h.md h.bs ?_
    show _ = if s.St.s0 = true ∨ s.LS (s.FN ++ s.MD) = 1 then a.put (dig1 i) (s.LS (s.FN ++ s.MD) - 1)
      else (a.put (dig1 i) (s.LS (s.FN ++ s.MD) - 1)).jump s.R
    rw [hgr, hR, h.s0]
    simp only [beq_iff_eq]
  · obtain rfl := Option.some.inj hv
    refine Ev.plain (n := 0x19e) ho h.ae.calm hro (by rw [w19e]; decide) (fun t => x19e e _ _)
      (fun t => by unfold memPart; rfl) fun t ht hc => ?_
    have hae := h.ae.upd hc h.ae.arch rfl rfl rfl rfl rfl rfl rfl
    have hcc : s.CC = a.cc := by rw [← h.ae.arch]; rfl
    by_cases h0 : dig2 i = 0
    · rw [if_pos (.inl h0)] at hi ⊢
      have hs0 : s.St.s0 = true := by rw [h.s0, h0]; rfl
      refine end_a (n := 0x1c7) ho hae hi ?_ (by rw [w1c7, w144])
      simp only [bg, hs0, Bool.or_true]; rfl
    · have hs0 : s.St.s0 = false := by rw [h.s0]; simpa using h0
      cases hsel : selected (dig1 i) a.cc with
      | false =>
        rw [hsel] at hi
        rw [if_pos (.inr rfl)] at hi ⊢
        refine end_a (n := 0x1c4) ho hae hi ?_ (by rw [w1c4, w144])
        simp only [bg, hs0, sel_eq, h.md, hcc, hsel]; rfl
      | true =>
        rw [hsel] at hi
        rw [if_neg (fun h1 => h1.elim h0 (by decide))] at hi ⊢
        rw [← hR] at hi ⊢
        refine br_tail ho hae (hi.same rfl) ?_
        simp only [bg, hs0, sel_eq, h.md, hcc, hsel]; rfl

/-- Every RR instruction of the specification. -/
theorem rr_exec_k {e : Env} {tk : Bool} {k : BitVec 2} {a a' : Arch} {i : BitVec 16} {s : S} (ho : EnvOk e)
    (h : FetR e tk k a i s) (hk : (opOf i).toNat = 0x05 → k = 1) (hv : rr a (opOf i) (dig1 i) (dig2 i) = some a')
    (hi : InStore e a') : Ev e tk (Bd e tk a') s := by
  have hcase : (opOf i).toNat / 16 = 0 ∨ ((opOf i).toNat / 16 = 1 ∧ a'.ia = a.ia) := by
    unfold rr at hv
    have hfix : ∀ r v, fixed a r v = some a' → a'.ia = a.ia := by
      intro r v h1
      unfold fixed at h1
      split at h1
      · obtain rfl := Option.some.inj h1; rfl
      · split at h1
        · exact nomatch h1
        · obtain rfl := Option.some.inj h1; rfl
    split at hv <;> rename_i heq <;>
      first
        | (rw [heq]; left; rfl)
        | (rw [heq]; right; refine ⟨rfl, ?_⟩
           first
             | exact hfix _ _ hv
             | (obtain rfl := Option.some.inj hv; rfl))
        | exact nomatch hv
  rcases hcase with hc | ⟨hc, hia⟩
  · exact Ev.bind (to_op0k ho h hc) fun s' h' => op0_exec ho h' hc hk hv hi
  · exact Ev.bind (to_op1 ho h hc) fun s' h' => op1_exec ho h' hc hv (hi.same hia.symm)

theorem rr_exec {e : Env} {tk : Bool} {a a' : Arch} {i : BitVec 16} {s : S} (ho : EnvOk e)
    (h : FetRR e tk a i s) (hv : rr a (opOf i) (dig1 i) (dig2 i) = some a')
    (hi : InStore e a') : Ev e tk (Bd e tk a') s := rr_exec_k ho h.r (fun _ => rfl) hv hi

end Verif.Cpu50
