import Verif.Cpu50.Words17
import Verif.Cpu50.FloatLoad

/-!
# Model 2050: LE, the short floating-point load from storage (C170)
-/

namespace Verif.Cpu50
open Verif.S360
attribute [local irreducible] ros

theorem begins_9c5 {e : Env} : Begins e 0x9c5 6#8 :=
  ⟨fun ex s => x9c5 e ex s, by rw [w9c5], by rw [w9c5]; decide, by rw [w9c5]; decide⟩

theorem arch17 (s : S) (v : W) : archOf { s with LS := lsPut s.LS 17#6 v } = archOf s := by
  have h1 : (fun i : BitVec 4 => lsPut s.LS 17#6 v (3#2 ++ i)) = fun i => s.LS (3#2 ++ i) := by
    funext i
    have h : ¬ (3#2 ++ i : BitVec 6) = 17#6 := by revert i; decide
    simp only [lsPut]; exact if_neg h
  have h2 : (fun i : BitVec 4 => lsPut s.LS 17#6 v (2#2 ++ i)) = fun i => s.LS (2#2 ++ i) := by
    funext i
    have h : ¬ (2#2 ++ i : BitVec 6) = 17#6 := by revert i; decide
    simp only [lsPut]; exact if_neg h
  have h3 : lsPut s.LS 17#6 v 23#6 = s.LS 23#6 := rfl
  simp only [archOf, h1, h2, h3]

/-- The operand at `x` of a short floating-point instruction has been asked for. -/
structure OpM (e : Env) (tk : Bool) (a : Arch) (i : BitVec 16) (x : W) (s : S) : Prop where
  ask : Asks e tk s
  ud : s.updD = false
  arch : archOf s = a
  f : s.F.toNat < 16
  odd : a.ia.toNat % 4 = 2 → s.REFETCH = false → s.LS 30 = a.mem (a.ia.toNat / 4) ∧
    s.SYLS1 = (s.LS 30 &&& 0xc000#32 == 0#32)
  md : s.MD = dig1 i
  s3 : s.St.s3 = true
  sar : s.SAR = x
  lo : nib s.M 6 = (opOf i).toNat % 16
  roar : s.ROAR = 2500 ||| 2 * (decide (fpReg (dig1 i))).toNat + 1
  il : s.ILC = 2#2

theorem fp_ok' {r : BitVec 4} : (r &&& 9#4 == 0#4) = decide (fpReg r) := by
  revert r; unfold fpReg; decide

/-- Before the words 11e, 11f and 341, which make the address `v`, not yet cut to 24 bits. -/
structure Last (e : Env) (tk : Bool) (a : Arch) (i : BitVec 16) (v : W) (n : Nat) (s : S) : Prop where
  ae : AtEnd e tk a s
  md : s.MD = dig1 i
  il : s.ILC = 2#2
  lo : nib s.M 6 = (opOf i).toNat % 16
  roar : s.ROAR = n
  hint : (interlocked (Cpu50.ros n).tr || usesStore (Cpu50.ros n)) = true
  h29 : ((Cpu50.ros n).tr == 29) = false
  hx : ∀ tu sa ex, ∃ u w alu aob St F, (St.s3 = true ∧ F.toNat < 16) ∧ exec e (Cpu50.ros n) ex
      { s with timUp := tu, SDR := sdrAt s, SA := sa, ms := .w1 } = .ok { s with
        timUp := tu, SDR := sdrAt s, SA := sa, ms := .w1, R := v,
        SAR := v &&& 16777215#32, alu := alu, aob := aob, u := u, w := w, F := F, EDST := 3#2,
        LSA := 17#6, St := St, initMem := s.initMem || v &&& 16777215#32 &&& 3#32 == 0#32,
        ROAR := if v &&& 16777215#32 &&& 3#32 = 0#32 then 2500 ||| 2 * (s.MD &&& 9#4 == 0#4).toNat + 1
          else 450,
        LS := lsPut s.LS 17#6 v }

theorem to_opm_last {e : Env} {tk : Bool} {a : Arch} {i : BitVec 16} {v : W} {s : S} {n : Nat}
    (ho : EnvOk e) (h : Last e tk a i v n s)
    (hw : Arch.within (4 * words e) 4 (v &&& 0xffffff#32)) :
    Ev e tk (OpM e tk a i (v &&& 0xffffff#32)) s := by
  have hx := h.hx
  choose u w alu aob St F hp hx using hx
  simp only [Arch.within, Bool.and_eq_true, beq_iff_eq, decide_eq_true_eq] at hw
  have h3 := (and3_mod _).2 hw.1
  refine Ev.wait ho h.ae.calm h.roar h.hint h.h29 hx fun tu sa ex hex hc => .now ?_
  refine ⟨⟨?_, hc.ib, rfl, ?_, ?_, hc.qt⟩, hc.ud, ?_, (hp tu sa ex).2, h.ae.odd, h.md, (hp tu sa ex).1, rfl, h.lo, ?_, h.il⟩
  · show (_ || _) = true
    simp [h3]
  · have := ho.top
    have := hw.2
    show (v &&& 16777215#32).toNat ≤ _
    omega
  · intro h1
    have h2 := hc.ud
    rw [show s.updD = true from h1] at h2; cases h2
  · exact (arch17 s v).trans h.ae.arch
  · show (if _ then _ else _) = _
    rw [if_pos h3, h.md, fp_ok']

/-- An address which is not a multiple of 4. -/
theorem mis_last {e : Env} {tk : Bool} {a b : Arch} {i : BitVec 16} {v : W} {s : S} {n : Nat}
    (ho : EnvOk e) (h : Last e tk a i v n s) (h4 : (v &&& 0xffffff#32).toNat % 4 ≠ 0)
    (hk : a.Kept) (hm : 112 ≤ 4 * words e) (hb : b = interrupt a 0x28 6 2)
    (hw : tk = false → Quiet a b) (hi : InStore e b) : Ev e tk (Bd e tk b) s := by
  have hx := h.hx
  choose u w alu aob St F hp hx using hx
  have h7 : ¬ v &&& 16777215#32 &&& 3#32 = 0#32 := fun h1 => h4 ((and3_mod _).1 h1)
  refine Ev.wait ho h.ae.calm h.roar h.hint h.h29 hx fun tu sa ex hex hc => ?_
  refine pgm_exec (a := a) ho (begins6 rfl) ⟨hc.congr ?_, (arch17 s v).trans h.ae.arch⟩ h.il (if_neg h7) hk hm hb hw hi
  have h9 : (s.initMem || v &&& 16777215#32 &&& 3#32 == 0#32) = s.initMem := by
    rw [beq_eq_false_iff_ne.2 h7, Bool.or_false]
  unfold memPart
  dsimp only
  rw [h9]

theorem to_last {e : Env} {tk : Bool} {a : Arch} {i i1 : BitVec 16} {P : S → Prop} {s : S} (ho : EnvOk e)
    (h : FetRX e tk a i i1 s) (hop : (opOf i).toNat / 16 = 7)
    (k : ∀ v n s', Last e tk a i v n s' →
      v &&& 0xffffff#32 = ea a (dig2 i) (i1.extractLsb' 12 4) (i1.extractLsb' 0 12) → Ev e tk P s') : Ev e tk P s := by
  have hro := h.roar
  have h64 : (opOf i).toNat / 64 = 1 := by omega
  rw [hop, decide_eq_true h64, Bool.and_true] at hro
  have hgx : s.LS (s.FN ++ s.J) = a.gr (dig2 i) := by
    rw [h.j, show s.FN = 3#2 from h.fn, gr_of h.arch]
  have hd := h.d
  have h0 := h.s0
  have h1 := h.s1
  have hl := h.l
  unfold ea at k
  generalize hB : i1.extractLsb' 12 4 = b at *
  generalize hD : (i1.extractLsb' 0 12).setWidth 32 = d at *
  by_cases hx : dig2 i = 0
  · rw [if_pos hx] at k
    rw [hx] at h0
    by_cases hb : b = 0
    · rw [if_pos hb] at k
      rw [hb] at h1
      rw [h0, h1] at hro
      have hz : (0 : W) + 0 + d = s.M &&& 65535#32 := by rw [hd]; simp
      rw [hz] at k
      exact k _ 0x11f _ ⟨h.atEnd, h.md, h.ilc, h.lo, hro, by rw [w11f]; decide, by rw [w11f]; decide,
        fun tu sa ex => ⟨_, _, _, _, _, _, ⟨rfl, h.atEnd.f⟩, x11f e _ _⟩⟩ rfl
    · rw [if_neg hb] at k
      rw [show (b == 0) = false by simpa using hb] at h1
      rw [h0, h1] at hro
      have hz : (0 : W) + a.gr b + d = s.L + (s.M &&& 65535#32) := by rw [hd, hl]; simp
      rw [hz] at k
      exact k _ 0x11e _ ⟨h.atEnd, h.md, h.ilc, h.lo, hro, by rw [w11e]; decide, by rw [w11e]; decide,
        fun tu sa ex => ⟨_, _, _, _, _, _, ⟨rfl, h.atEnd.f⟩, x11e e _ _⟩⟩ rfl
  · rw [if_neg hx] at k
    rw [show (dig2 i == 0) = false by simpa using hx] at h0
    by_cases hb : b = 0
    · rw [if_pos hb] at k
      rw [hb] at h1
      rw [h0, h1] at hro
      have hz : a.gr (dig2 i) + 0 + d = s.LS (s.FN ++ s.J) + (s.M &&& 65535#32) := by
        rw [hd, hgx]; simp
      rw [hz] at k
      refine Ev.plain ho h.calm (n := 0x11d) hro (by rw [w11d]; decide) (fun t => x11d e _ _)
        (fun t => by unfold memPart; rfl) fun t ht hc => ?_
      exact k _ 0x341 _ ⟨(h.atEnd.upd hc h.arch rfl rfl rfl rfl rfl rfl rfl), h.md, h.ilc, h.lo, rfl, by rw [w341]; decide, by rw [w341]; decide,
        fun tu sa ex => ⟨_, _, _, _, _, _, ⟨rfl, (by decide : (0#8).toNat < 16)⟩, x341 e _ _⟩⟩ rfl
    · rw [if_neg hb] at k
      rw [show (b == 0) = false by simpa using hb] at h1
      rw [h0, h1] at hro
      have hz : a.gr (dig2 i) + a.gr b + d =
          s.LS (s.FN ++ s.J) + (s.L + (s.M &&& 65535#32)) := by
        rw [hd, hgx, hl, BitVec.add_assoc]
      rw [hz] at k
      refine Ev.plain ho h.calm (n := 0x11c) hro (by rw [w11c]; decide) (fun t => x11c e _ _)
        (fun t => by unfold memPart; rfl) fun t ht hc => ?_
      exact k _ 0x341 _ ⟨(h.atEnd.upd hc h.arch rfl rfl rfl rfl rfl rfl rfl), h.md, h.ilc, h.lo, rfl, by rw [w341]; decide, by rw [w341]; decide,
        fun tu sa ex => ⟨_, _, _, _, _, _, ⟨rfl, (by decide : (0#8).toNat < 16)⟩, x341 e _ _⟩⟩ rfl

theorem to_opm {e : Env} {tk : Bool} {a : Arch} {i i1 : BitVec 16} {s : S} (ho : EnvOk e)
    (h : FetRX e tk a i i1 s) (hop : (opOf i).toNat / 16 = 7)
    (hw : Arch.within (4 * words e) 4
      (ea a (dig2 i) (i1.extractLsb' 12 4) (i1.extractLsb' 0 12))) :
    Ev e tk (OpM e tk a i (ea a (dig2 i) (i1.extractLsb' 12 4) (i1.extractLsb' 0 12))) s := by
  refine to_last ho h hop fun v n s' hl hv => ?_
  rw [← hv] at hw ⊢
  exact to_opm_last ho hl hw

/-- LE, after the address. -/
theorem le_exec {e : Env} {tk : Bool} {a : Arch} {i : BitVec 16} {x : W} {s : S} (ho : EnvOk e)
    (h : OpM e tk a i x s) (hop : (opOf i).toNat = 0x78) (h1 : fpReg (dig1 i)) (hi : InStore e a) :
    Ev e tk (Bd e tk (a.putF (dig1 i) (a.mem (x.toNat / 4)))) s := by
  have hro := h.roar
  have hlo := h.lo
  rw [decide_eq_true h1] at hro
  rw [hop] at hlo
  refine Ev.acc (n := 0x9c7) ho h.ask hro (by rw [w9c7]; decide) (fun t => x9c7 e _ _) fun t ht hc => ?_
  have hsd : sdrAt (acc t s) = a.mem (x.toNat / 4) := by
    rw [sdr_acc ho h.ask, h.sar, ← h.arch]; rfl
  have hro2 : (768 ||| nib s.M 6 <<< 2 ||| 2) = 0x322 := by rw [hlo]; rfl
  refine Ev.wait (n := 0x322) ho (hc.congr (by unfold memPart; rfl)) hro2 (by rw [w322]; decide) (by rw [w322]; decide)
    (fun tu sa ex => x322 e _ _) fun tu sa ex hex hc2 => ?_
  have hro3 : (844 ||| 2 * s.St.s3.toNat + (!s.St.s3).toNat) = 0x34e := by rw [h.s3]; rfl
  refine end_a (n := 0x34e) ho ⟨hc2.congr (by unfold memPart; rfl), ?_, h.f, rfl, ?_⟩ (hi.same rfl) hro3
    (by rw [w34e, w144])
  · refine arch_putF' (s := s) h.arch rfl ?_
    show lsPut s.LS (2#2 ++ s.MD) (sdrAt (acc t s)) = _
    rw [hsd, h.md]
  · intro h4 h5
    have h6 := h.odd h4 (by simp only [acc, h.ud, Bool.false_and, Bool.or_false] at h5; exact h5)
    show lsPut s.LS (2#2 ++ s.MD) _ 30 = _ ∧ s.SYLS1 = (lsPut s.LS (2#2 ++ s.MD) _ 30 &&& _ == _)
    rw [ls30F]
    exact h6

/-- C170: `LE` gives the floating-point register the word of storage which the instruction addresses. -/
theorem C170_load_short {e : Env} {tk : Bool} {a : Arch} {s : S} (ho : EnvOk e)
    (h : Ready e tk a s) (hia : InStore e a) (hop : (opOf a.inst).toNat = 0x78)
    (h1 : fpReg (dig1 a.inst)) (hr : Arch.within (4 * words e) 4 a.operand) (hi : InStore e a.next)
    (tick : Nat → Bool) (ht : ∀ i, tick i = true → tk = true) :
    ∃ n s', run e tick n s = .ok s' ∧
      (Ready e tk (a.next.putF (dig1 a.inst) (a.mem (a.operand.toNat / 4))) s' ∨
       Pend e tk (a.next.putF (dig1 a.inst) (a.mem (a.operand.toNat / 4))) s') := by
  refine Ev.run ?_ tick ht
  rw [next4 (by omega) (by omega)] at hi ⊢
  rw [operand_rx (by omega)] at hr ⊢
  exact Ev.bind (fetch_rx ho h (by omega) (by omega) hia.rg) fun s1 f1 =>
    Ev.bind (to_opm ho f1 (by omega) hr) fun s2 f2 => le_exec ho f2 hop h1 hi

/-- C170: `LE` of another register is suppressed; a program interruption with the code 6 follows. -/
theorem C170_specification {e : Env} {tk : Bool} {a b : Arch} {s : S} (ho : EnvOk e)
    (h : Ready e tk a s) (hia : InStore e a) (hk : a.Kept) (hm : 112 ≤ 4 * words e)
    (hop : (opOf a.inst).toNat = 0x78)
    (h1 : ¬ fpReg (dig1 a.inst)) (hr : Arch.within (4 * words e) 4 a.operand)
    (hb : b = interrupt a.next 0x28 6 2) (hw : tk = false → Quiet a b) (hi : InStore e b)
    (tick : Nat → Bool) (ht : ∀ i, tick i = true → tk = true) :
    ∃ n s', run e tick n s = .ok s' ∧ (Ready e tk b s' ∨ Pend e tk b s') := by
  refine Ev.run ?_ tick ht
  rw [next4 (by omega) (by omega)] at hb
  rw [operand_rx (by omega)] at hr
  refine Ev.bind (fetch_rx ho h (by omega) (by omega) hia.rg) fun s1 f1 =>
    Ev.bind (to_opm ho f1 (by omega) hr) fun s2 f2 => ?_
  have hro := f2.roar
  rw [decide_eq_false h1] at hro
  exact pgm_acc (n := 0x9c5) ho begins_9c5 f2.ask f2.arch f2.il hro hk hm hb hw hi

/-- C170: LE and the other short instructions with an operand which is not on a word boundary: nothing is loaded, a program interruption with the code 6 follows. -/
theorem C170_boundary {e : Env} {tk : Bool} {a b : Arch} {s : S} (ho : EnvOk e)
    (h : Ready e tk a s) (hia : InStore e a) (hk : a.Kept) (hm : 112 ≤ 4 * words e)
    (hop : (opOf a.inst).toNat = 0x70 ∨ 0x78 ≤ (opOf a.inst).toNat ∧ (opOf a.inst).toNat ≤ 0x7f) (h4 : a.operand.toNat % 4 ≠ 0)
    (hb : b = interrupt a.next 0x28 6 2) (hw : tk = false → Quiet a b) (hi : InStore e b)
    (tick : Nat → Bool) (ht : ∀ i, tick i = true → tk = true) :
    ∃ n s', run e tick n s = .ok s' ∧ (Ready e tk b s' ∨ Pend e tk b s') := by
  refine Ev.run ?_ tick ht
  rw [next4 (by omega) (by omega)] at hb
  rw [operand_rx (by omega)] at h4
  refine Ev.bind (fetch_rx ho h (by omega) (by omega) hia.rg) fun s1 f1 =>
    to_last ho f1 (by omega) fun v n s' hl hv => ?_
  exact mis_last ho hl (by rw [hv]; exact h4) hk hm hb hw hi

/-- `LE 2,100`: the instruction itself as the number. -/
example (tick : Nat → Bool) : ∃ n s', run e64 tick n (startFloat 0x78200100 0x41100000 7) = .ok s' ∧
    ∃ b : Arch, (b.fr 2 = 0x78200100 ∧ b.fr 3 = 0 ∧ b.fr 4 = 0x41100000 ∧ b.ia = 0x104) ∧
      (Ready e64 true b s' ∨ Pend e64 true b s') := by
  obtain ⟨n, s', h1, h2⟩ := C170_load_short e64_ok (ready_float 0x78200100 0x41100000 7) ⟨by decide, by decide⟩
    (by decide) (by decide) (by decide) ⟨by decide, by decide⟩ tick (by simp)
  exact ⟨n, s', h1, _, by decide, h2⟩

/-- `LE 3,100`: there is no such register. -/
example (tick : Nat → Bool) : ∃ n s', run e64 tick n (startFloat 0x78300100 0x41100000 7) = .ok s' ∧
    ∃ b : Arch, (b.fr 3 = 0 ∧ b.mem 10 = 6 ∧ b.mem 11 = 0x80000104 ∧ b.ia = 0x200) ∧
      (Ready e64 true b s' ∨ Pend e64 true b s') := by
  obtain ⟨n, s', h1, h2⟩ := C170_specification e64_ok (ready_float 0x78300100 0x41100000 7) ⟨by decide, by decide⟩
    (by unfold Arch.Kept; decide) (by decide) (by decide) (by decide) (by decide) rfl (fun h => nomatch h) ⟨by decide, by decide⟩ tick (by simp)
  exact ⟨n, s', h1, _, by decide, h2⟩

/-- `LE 2,102`. -/
example (tick : Nat → Bool) : ∃ n s', run e64 tick n (startFloat 0x78200102 0x41100000 7) = .ok s' ∧
    ∃ b : Arch, (b.fr 2 = 0 ∧ b.mem 10 = 6 ∧ b.mem 11 = 0x80000104 ∧ b.ia = 0x200) ∧
      (Ready e64 true b s' ∨ Pend e64 true b s') := by
  obtain ⟨n, s', h1, h2⟩ := C170_boundary e64_ok (ready_float 0x78200102 0x41100000 7) ⟨by decide, by decide⟩
    (by unfold Arch.Kept; decide) (by decide) (by decide) (by decide) rfl (fun h => nomatch h) ⟨by decide, by decide⟩ tick (by simp)
  exact ⟨n, s', h1, _, by decide, h2⟩

end Verif.Cpu50
