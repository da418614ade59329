import Verif.Cpu50.OpCheck

/-!
# Model 2050: EXECUTE of EXECUTE (C166)

Words 710 and 743 of `/repo/src/model2050/ros.txt`.
-/

namespace Verif.Cpu50

open Verif.S360

theorem w743 : ros 0x743 = {
      lu := 0, mv := 0, zp := 384, zf := 5, zn := 4, tr := 0, ws := 4, sf := 7, iv := 0, al := 0, wm := 15, up := 2,
      md := 0, lb := 0, mb := 0, dg := 0, ul := 1, ur := 0, ce := 3, lx := 0, tc := 1, ry := 0, ad := 1, ab := 0,
      bb := 1, ss := 0 } := by
  decide +kernel

/-- `743 qe400-s2 E=3 0+0>T |U:0 V:0 W:U>WL,E>WR>W>MD,F |LS:FN,J>LSA 7 |A:0 B:1 Z:194` -/
theorem x743 (e : Env) (ex : Bool) (s : S) :
    exec e (ros 0x743) ex s = .ok { s with
      alu := 0#32, aob := 0#32, u := 0#8, w := 3#8, F := 3#8, MD := 0#4, EDST := 3#2, LSA := s.FN ++ s.J,
      ROAR := 0x195 } := by
  rw [w743]
  simp [exec, needsChan, front, condA, condB, combine, abBits, nextBase, leftBus, leftIn, rightBus, rightIn, uBus, vBus, ceB, moverL, moverR, adCin, ivStep, smif, dgStep, cinW, adder, adStep, lateB, alStep, ssEarly, trStep, protect, ssLate, wsStep, wmStep, upStep, finish, Out.bind, ceBit, fpStats, Nat.testBit_eq_decide_div_mod_eq, mov_whole]

theorem begins3 {e : Env} : Begins e 0x743 3#8 :=
  ⟨fun ex s => x743 e ex s, by rw [w743], by rw [w743]; decide, by rw [w743]; decide⟩

/-- The operand address of an EXECUTE `i`, `i1` which is itself executed from `x`, as the processor computes
it: at a word boundary the base is never left out (C160). -/
def secondAddress (a : Arch) (x : Nat) (i i1 : BitVec 16) : W :=
  if x % 4 = 0 then ((if dig2 i = 0 then 0 else a.gr (dig2 i)) + a.gr (i1.extractLsb' 12 4) +
    (i1.extractLsb' 0 12).setWidth 32) &&& 0xffffff
  else ea a (dig2 i) (i1.extractLsb' 12 4) (i1.extractLsb' 0 12)

/-- Word 710 with `S7` on: the reference is asked for and the next word is 743. -/
theorem exex_exec {e : Env} {tk : Bool} {a b : Arch} {i : BitVec 16} {x : W} {s : S} (ho : EnvOk e)
    (h : Op4 e tk a i x s) (hop : (opOf i).toNat = 0x44) (h7 : s.St.s7 = true) (hk : a.Kept) (hm : 112 ≤ 4 * words e)
    (hb : b = interrupt a 0x28 (if x.toNat < 4 * words e then 3 else 5) 2) (hw : tk = false → Quiet a b) (hi : InStore e b) :
    Ev e tk (Bd e tk b) s := by
  have hro := h.roar
  rw [hop] at hro
  refine Ev.wait (n := 0x710) ho h.ae.calm hro (by rw [w710]; decide) (by rw [w710]; decide)
    (fun tu sa ex => x710 e _ _) fun tu sa ex hex hc2 => ?_
  by_cases hl : x.toNat < 4 * words e
  · rw [if_pos hl] at hb
    have hq := Req.mk' (i := i) ho h.ae h.fn h.md hl (s' := { s with
        timUp := tu, SDR := sdrAt s, SA := sa, ms := .w1,
        R := s.L, SAR := s.L &&& 16777215#32, alu := s.L, aob := s.L, u := 0#8, w := 0#8, BS := 15#4, EDST := 3#2,
        LSA := s.FN ++ s.J, St := { s.St with s3 := s.L &&& 2#32 != 0#32 }, initMem := true,
        ROAR := 1856 ||| 2 * s.St.s7.toNat + (s.MD == 0#4 || s.St.s7).toNat })
      rfl rfl rfl rfl hc2.qt rfl rfl rfl rfl rfl rfl rfl h.l
    exact pgm_acc ho begins3 hq.ask hq.arch h.il (by simp [h7]) hk hm hb hw hi
  · rw [if_neg hl] at hb
    refine addr_run ho h.ae.arch h.il rfl h.ae.calm.ib h.ae.calm.ud rfl hc2.qt ?_ hk hm hb hw hi
    show 4 * words e ≤ (s.L &&& 16777215#32).toNat
    rw [h.l]; omega

/-- EXECUTE of EXECUTE, to its interruption. -/
theorem exex_run {e : Env} {tk : Bool} {a b : Arch} {s : S} (ho : EnvOk e)
    (h : Ready e tk a s) (h7 : s.ROAR = 0x148 → s.St.s7 = false) (hia : InStore e a) (hk : a.Kept)
    (hm : 112 ≤ 4 * words e) (hop : isExecute (opOf a.inst))
    (hx : a.operand.toNat % 2 = 0) (hl : a.operand.toNat + 4 ≤ 4 * words e)
    (hop2 : isExecute (opOf (a.half a.operand.toNat)))
    (hb : b = interrupt a.next 0x28 (if (secondAddress a a.operand.toNat (a.subject (dig1 a.inst) a.operand.toNat)
      (a.half (a.operand.toNat + 2))).toNat < 4 * words e then 3 else 5) 2)
    (hw : tk = false → Quiet a.next b) (hi : InStore e b)
    (tick : Nat → Bool) (ht : ∀ i, tick i = true → tk = true) :
    ∃ n s', run e tick n s = .ok s' ∧ (Ready e tk b s' ∨ Pend e tk b s') := by
  have hex : (opOf a.inst).toNat = 0x44 := hop
  have hs := opOf_subject a (dig1 a.inst) a.operand.toNat
  have hop2' : (opOf (a.half a.operand.toNat)).toNat = 0x44 := hop2
  have hk' : a.next.Kept := by rw [next_ex hex]; exact hk
  refine ((execute_fet ho h h7 hia hex hx hl (by omega)).bind fun s1 h1 => ?_).run tick ht
  unfold secondAddress at hb
  by_cases h4 : a.operand.toNat % 4 = 0
  · rw [if_pos h4] at hb
    rw [decide_eq_false (by omega), Bool.false_and] at h1
    have hg : a.next.gr = a.gr := by rw [next_ex hex]
    refine Ev.bind (fetB_op4 (v := a.gr ((a.half (a.operand.toNat + 2)).extractLsb' 12 4)) ho h1 (by rw [hs]; omega)) fun s2 h2 => ?_
    rw [hg] at h2
    exact exex_exec ho h2.1 (by rw [hs]; exact hop2') h2.2 hk' hm hb hw hi
  · rw [if_neg h4] at hb
    rw [decide_eq_true (by omega), Bool.true_and] at h1
    have h7' := h1.s7
    have h1' := FetB.rx (a := a.next) (by rw [next_ex hex] at h1 ⊢; exact h1) rfl
    refine Ev.bind (to_op40 ho h1' (by rw [hs]; omega)) fun s2 h2 => ?_
    have he : ∀ p q r, ea a.next p q r = ea a p q r := fun p q r => by rw [next_ex hex]; rfl
    rw [he] at h2
    exact exex_exec ho h2.1 (by rw [hs]; exact hop2') (h2.2.1.trans h7') hk' hm hb hw hi

/-- C166 (partial). EXECUTE of an EXECUTE causes an execute interruption (code 3): registers, condition
code and storage keep their values, the instruction after the first EXECUTE is in the old PSW. Missing: the
operand address of the second EXECUTE outside of storage, for which it does not hold; `h7` as for C160. -/
theorem C166_execute_execute_partial {e : Env} {tk : Bool} {a b : Arch} {s : S} (ho : EnvOk e)
    (h : Ready e tk a s) (h7 : s.ROAR = 0x148 → s.St.s7 = false) (hia : InStore e a) (hk : a.Kept)
    (hm : 112 ≤ 4 * words e) (hop : isExecute (opOf a.inst))
    (hx : a.operand.toNat % 2 = 0) (hl : a.operand.toNat + 4 ≤ 4 * words e)
    (hop2 : isExecute (opOf (a.half a.operand.toNat)))
    (hl2 : (secondAddress a a.operand.toNat (a.subject (dig1 a.inst) a.operand.toNat)
      (a.half (a.operand.toNat + 2))).toNat < 4 * words e)
    (hb : b = interrupt a.next 0x28 3 2) (hw : tk = false → Quiet a.next b) (hi : InStore e b)
    (tick : Nat → Bool) (ht : ∀ i, tick i = true → tk = true) :
    ∃ n s', run e tick n s = .ok s' ∧ (Ready e tk b s' ∨ Pend e tk b s') :=
  exex_run ho h h7 hia hk hm hop hx hl hop2 (by rw [if_pos hl2]; exact hb) hw hi tick ht

/-- C166 is violated: if the operand address of the second EXECUTE, which is not to be carried out, is outside of
storage, the interruption is one for addressing (code 5). -/
theorem C166_violated_addressing {e : Env} {tk : Bool} {a b : Arch} {s : S} (ho : EnvOk e)
    (h : Ready e tk a s) (h7 : s.ROAR = 0x148 → s.St.s7 = false) (hia : InStore e a) (hk : a.Kept)
    (hm : 112 ≤ 4 * words e) (hop : isExecute (opOf a.inst))
    (hx : a.operand.toNat % 2 = 0) (hl : a.operand.toNat + 4 ≤ 4 * words e)
    (hop2 : isExecute (opOf (a.half a.operand.toNat)))
    (hl2 : 4 * words e ≤ (secondAddress a a.operand.toNat (a.subject (dig1 a.inst) a.operand.toNat)
      (a.half (a.operand.toNat + 2))).toNat)
    (hb : b = interrupt a.next 0x28 5 2) (hw : tk = false → Quiet a.next b) (hi : InStore e b)
    (tick : Nat → Bool) (ht : ∀ i, tick i = true → tk = true) :
    ∃ n s', run e tick n s = .ok s' ∧ (Ready e tk b s' ∨ Pend e tk b s') :=
  exex_run ho h h7 hia hk hm hop hx hl hop2 (by rw [if_neg (by omega)]; exact hb) hw hi tick ht

/-- At 100 EXECUTE of 200, where there is `w`; the new program PSW points to 300. -/
def exexMem (w : W) (i : Nat) : W := if i = 0x40 then 0x44000200 else if i = 0x80 then w else if i = 27 then 0x300 else 0

/-- EXECUTE of 204 at 200: code 3. -/
example (tick : Nat → Bool) : ∃ n s', run e64 tick n (start (exexMem 0x44000204) 0 fun _ => 0) = .ok s' ∧
    ∃ b : Arch, (b.ia = 0x300 ∧ b.mem 10 = 3 ∧ b.mem 11 = 0x80000104) ∧ (Ready e64 true b s' ∨ Pend e64 true b s') := by
  obtain ⟨n, s', h1, h2⟩ := C166_execute_execute_partial (tk := true) e64_ok
    (start_ready true (exexMem 0x44000204) 0 fun _ => 0)
    (fun h => absurd h (by decide)) ⟨by decide, by decide⟩ (by unfold Arch.Kept; decide) (by decide)
    (by unfold isExecute; decide) (by decide) (by decide) (by unfold isExecute; decide) (by decide) rfl
    (fun h => nomatch h) ⟨by decide, by decide⟩ tick (fun _ _ => rfl)
  exact ⟨n, s', h1, _, by decide, h2⟩

/-- The same with 64K in register 2. -/
def startX : S :=
  { start (exexMem 0x44002004) 0 (fun _ => 0) with LS := fun k => if k = 3#2 ++ 2#4 then 0x10000 else 0 }

/-- EXECUTE of 10004 at 200 with 64K of storage: code 5. -/
example (tick : Nat → Bool) : ∃ n s', run e64 tick n startX = .ok s' ∧
    ∃ b : Arch, (b.ia = 0x300 ∧ b.mem 10 = 5 ∧ b.mem 11 = 0x80000104) ∧
      (Ready e64 true b s' ∨ Pend e64 true b s') := by
  have hr : Ready e64 true { arch0 (exexMem 0x44002004) 0 (fun _ => 0) with
      gr := fun r => if r = 2 then 0x10000 else 0 } startX := by
    refine .even ⟨rfl, rfl, rfl, ?_, (fun h => nomatch h), fun h => nomatch h⟩ ?_ (.inl rfl) ?_ ?_ ?_
    · show (0x100#32).toNat ≤ _
      decide
    · show (0#8).toNat < 16
      decide
    · have h1 : (fun r : BitVec 4 => startX.LS (3#2 ++ r)) = fun r => if r = 2 then (0x10000 : W) else 0 := by
        funext r
        show (if (3#2 ++ r : BitVec 6) = 3#2 ++ 2#4 then (0x10000 : W) else 0) = _
        revert r; decide
      have h2 : (fun r : BitVec 4 => startX.LS (2#2 ++ r)) = fun _ => (0 : W) := by
        funext r
        show (if (2#2 ++ r : BitVec 6) = 3#2 ++ 2#4 then (0x10000 : W) else 0) = _
        revert r; decide
      unfold archOf
      rw [h1, h2]
      rfl
    · show (0x100#32).toNat % 4 = 0
      decide
    · show (0x100#32).toNat / 4 = (0x100#32).toNat / 4
      rfl
  obtain ⟨n, s', h1, h2⟩ := C166_violated_addressing e64_ok hr
    (fun h => absurd h (by decide)) ⟨by decide, by decide⟩ (by unfold Arch.Kept; decide) (by decide)
    (by unfold isExecute; decide) (by decide) (by decide) (by unfold isExecute; decide) (by decide) rfl
    (fun h => nomatch h) ⟨by decide, by decide⟩ tick (fun _ _ => rfl)
  exact ⟨n, s', h1, _, by decide, h2⟩

end Verif.Cpu50
