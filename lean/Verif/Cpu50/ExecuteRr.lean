import Verif.Cpu50.Words14
import Verif.Cpu50.ExecuteProps

/-!
# Model 2050: EXECUTE with a subject instruction of the format RR (C160)
-/

namespace Verif.Cpu50

open Verif.S360
attribute [local irreducible] ros

theorem byte1_md (m : W) :
    BitVec.setWidth 4 ((byteOf m 1#2 &&& 240#8) >>> 4) = BitVec.setWidth 4 (m >>> 20) := by
  apply BitVec.eq_of_getLsbD_eq; intro i hi
  interval_cases i <;> simp [byteOf]

/-- From the common words of EXECUTE to the first microinstruction of an RR subject at a word boundary. -/
theorem FetB.r {e : Env} {tk : Bool} {a : Arch} {i i1 : BitVec 16} {v : W} {z : Bool} {s : S}
    (h : FetB e tk a i i1 v z s) (hop : (opOf i).toNat < 0x40) : FetR e tk 2 a i s :=
  ⟨h.toFet, h.ilc, ⟨s.St.s1, by
    have hr := h.roar
    rw [decide_eq_false (by omega), Bool.and_false] at hr
    simpa using hr⟩, h.m1⟩

/-- Words 745, 784, 703 and 793: an RR instruction at a halfword boundary. -/
theorem ex_odd_rr {e : Env} {tk : Bool} {a : Arch} {r : BitVec 4} {x : W} {s : S} (ho : EnvOk e)
    (h : Exd e tk a r x s) (h4 : x.toNat % 4 = 2) (hop : (opOf (a.half x.toNat)).toNat < 0x40) :
    Ev e tk (FetR e tk 2 a (a.subject r x.toNat)) s := by
  obtain ⟨hi1, hi2⟩ := subject_odd (a := a) (r := r) h4
  have hro := h.roar
  rw [h4] at hro
  have hsy : (sdrAt s &&& 49152#32 == 0#32) = true := by
    rw [h.sdr]
    have h1 : (a.mem (x.toNat / 4)).extractLsb' 0 16 = a.half x.toNat := (if_neg (by omega)).symm
    rw [syl_rr h1]; exact decide_eq_true (by omega)
  have hM0 : ∀ m : W, m = putByte (sdrAt s <<< 16) s.MB (mvfL s.mvf (BitVec.setWidth 8
      (BitVec.setWidth 4 (byteOf s.L s.LB >>> 4)) <<< 4 ||| (byteOf s.L s.LB &&& 15#8)) (byteOf (sdrAt s <<< 16) s.MB) |||
      mvfR s.mvf (BitVec.setWidth 8 (BitVec.setWidth 4 (byteOf s.L s.LB >>> 4)) <<< 4 |||
        (byteOf s.L s.LB &&& 15#8)) (byteOf (sdrAt s <<< 16) s.MB)) →
      m.extractLsb' 16 16 = a.subject r x.toNat := by
    intro m hm
    rw [two_digits, h.mb, h.mvf, h.sdr, h.l] at hm
    subst hm
    rw [hi1, ← shl16_hi]
    exact (or_byte _ _).1
  refine Ev.wait (n := 0x745) ho h.calm hro (by rw [w745]; decide) (by rw [w745]; decide)
    (fun tu sa ex => x745 e _ _) fun tu sa ex hex hc1 => ?_
  refine Ev.plain (n := 0x784) ho (hc1.congr (by unfold memPart; rfl)) rfl (by rw [w784]; decide) (fun t => x784 e _ _)
    (fun t => by unfold memPart; rfl) fun t2 ht2 hc2 => ?_
  refine Ev.plain (n := 0x703) ho hc2 (by simp only [bg, hsy]; rfl) (by rw [w703]; decide) (fun t => x703 e _ _)
    (fun t => by unfold memPart; rfl) fun t3 ht3 hc3 => ?_
  refine Ev.plain (n := 0x793) ho hc3 rfl (by rw [w793]; decide) (fun t => x793 e _ _)
    (fun t => by unfold memPart; rfl) fun t4 ht4 hc4 => .now ?_
  have hM1 := hM0 _ rfl
  exact
    { calm := hc4
      arch := by rw [← h.arch]; rfl
      fn := h.fn
      bs := h.bs
      f := and15_lt _
      iva := h.iva
      mb := rfl
      lb := rfl
      g := h.g
      g1 := h.g1
      g2 := h.g2
      j := sw16 hM1
      md := by
        simp only [bg, h.mb]
        rw [h.mb] at hM1
        exact (byte1_md _).trans (sw20 hM1)
      hi := nib7 hM1
      lo := nib6 hM1
      s0 := s0_bit hM1
      odd := fun _ h => nomatch h
      ilc := h.il
      roar := ⟨false, by simp only [bg]; rw [← nib7 hM1]; simp⟩
      m1 := hM1 }

/-- EXECUTE up to the first microinstruction of a subject of the format RR. -/
theorem execute_fetr {e : Env} {tk : Bool} {a : Arch} {s : S} (ho : EnvOk e)
    (h : Ready e tk a s) (h7 : s.ROAR = 0x148 → s.St.s7 = false) (hia : InStore e a)
    (hex : (opOf a.inst).toNat = 0x44) (hx : a.operand.toNat % 2 = 0) (hl : a.operand.toNat < 4 * words e)
    (hop : (opOf (a.half a.operand.toNat)).toNat < 0x40) :
    Ev e tk (FetR e tk 2 a.next (a.subject (dig1 a.inst) a.operand.toNat)) s := by
  rw [next_ex hex]
  refine Ev.bind (fetch_rx7 (Z := True) ho h (by omega) (by omega) hia.rg fun h _ => h7 h) fun s1 h1 => ?_
  refine Ev.bind (to_op40 ho h1.1 (by omega)) fun s2 h2 => ?_
  rw [← operand_ex hex] at h2
  refine Ev.bind (ex_ask ho h2.1 hex (h2.2.1.trans (h1.2.2 trivial)) hx (by omega)) fun s3 h3 => ?_
  have h4 : a.operand.toNat % 4 = 0 ∨ a.operand.toNat % 4 = 2 := by omega
  rcases h4 with h4 | h4
  · refine Ev.bind (ex_even ho h3 h4 (fun m hm => top4 hm)) fun s4 h4' => ?_
    refine Ev.bind (h4'.fet ho) fun s5 h5 => .now (h5.r ?_)
    have := opOf_subject a (dig1 a.inst) a.operand.toNat
    have h6 : opOf ({ a with ia := a.ia + 4 } |>.subject (dig1 a.inst) a.operand.toNat) = opOf (a.half a.operand.toNat) := this
    rw [h6]; exact hop
  · exact ex_odd_rr ho h3 h4 hop

/-- C160 (partial). EXECUTE carries out the RR instruction at its operand address, with the low byte of the
first register combined into its second byte by OR, and goes on after the EXECUTE. Missing: `h7`, as for the other formats. BRANCH AND LINK is
`C160_execute_balr_partial`. -/
theorem C160_execute_rr_partial {e : Env} {tk : Bool} {a a' : Arch} {s : S} (ho : EnvOk e)
    (h : Ready e tk a s) (h7 : s.ROAR = 0x148 → s.St.s7 = false) (hia : InStore e a)
    (hex : (opOf a.inst).toNat = 0x44) (hx : a.operand.toNat % 2 = 0) (hl : a.operand.toNat < 4 * words e)
    (hop : (opOf (a.half a.operand.toNat)).toNat < 0x40) (hbal : (opOf (a.half a.operand.toNat)).toNat ≠ 0x05)
    (hv : rr a.next (opOf (a.half a.operand.toNat)) (dig1 (a.subject (dig1 a.inst) a.operand.toNat))
      (dig2 (a.subject (dig1 a.inst) a.operand.toNat)) = some a')
    (hi : InStore e a') (tick : Nat → Bool) (ht : ∀ i, tick i = true → tk = true) :
    ∃ n s', run e tick n s = .ok s' ∧ (Ready e tk a' s' ∨ Pend e tk a' s') := by
  have hs := opOf_subject a (dig1 a.inst) a.operand.toNat
  refine ((execute_fetr ho h h7 hia hex hx hl hop).bind fun s1 h1 => ?_).run tick ht
  rw [← hs] at hv
  exact rr_exec_k ho h1 (fun h => absurd (by rw [← hs]; exact h) hbal) hv hi

/-- C160 (partial). EXECUTE of BRANCH AND LINK: the link is the right half of the PSW after the EXECUTE, with the
instruction length 2 of the EXECUTE and the address of the instruction after it. Missing: `h7`. -/
theorem C160_execute_balr_partial {e : Env} {tk : Bool} {a a' : Arch} {s : S} (ho : EnvOk e)
    (h : Ready e tk a s) (h7 : s.ROAR = 0x148 → s.St.s7 = false) (hia : InStore e a)
    (hex : (opOf a.inst).toNat = 0x44) (hx : a.operand.toNat % 2 = 0) (hl : a.operand.toNat < 4 * words e)
    (hbal : (opOf (a.half a.operand.toNat)).toNat = 0x05)
    (hv : a' = if dig2 (a.subject (dig1 a.inst) a.operand.toNat) = 0
      then a.next.put (dig1 (a.subject (dig1 a.inst) a.operand.toNat)) (link a.next 2)
      else (a.next.put (dig1 (a.subject (dig1 a.inst) a.operand.toNat)) (link a.next 2)).jump
        (a.next.gr (dig2 (a.subject (dig1 a.inst) a.operand.toNat))))
    (hi : InStore e a') (tick : Nat → Bool) (ht : ∀ i, tick i = true → tk = true) :
    ∃ n s', run e tick n s = .ok s' ∧ (Ready e tk a' s' ∨ Pend e tk a' s') := by
  have hs := opOf_subject a (dig1 a.inst) a.operand.toNat
  refine ((execute_fetr ho h h7 hia hex hx hl (by omega)).bind fun s1 h1 => ?_).run tick ht
  rw [← hs] at hbal
  subst hv
  exact Ev.bind (to_op0k ho h1 (by omega)) fun s2 h2 => balr_exec ho h2 hbal hi

/-- `EX 1,200` and `EX 1,202`; at 200 `LR 2,0`, at 202 `BCR 15,0`, at 204 `BALR 4,0`. -/
def exRr (w : W) : Nat → W
  | 0x40 => w
  | 0x80 => 0x182007f0
  | 0x81 => 0x05400000
  | _ => 0

/-- The processor with 3 in register 1 and 7 in register 3; the program is at 100. -/
def startRr (w : W) : S :=
  { start (exRr w) 0 (fun _ => 0) with LS := fun k => if k = 3#2 ++ 1#4 then 3 else if k = 3#2 ++ 3#4 then 0x208 else 0 }

theorem ready_rr (w : W) : Ready e64 true { arch0 (exRr w) 0 (fun _ => 0) with
    gr := fun r => if r = 1 then 3 else if r = 3 then 0x208 else 0 } (startRr w) := by
  refine .even ⟨rfl, rfl, rfl, ?_, (fun h => nomatch h), fun h => nomatch h⟩ ?_ (.inl rfl) ?_ ?_ ?_
  · show (0x100#32).toNat ≤ _
    decide
  · show (0#8).toNat < 16
    decide
  · have h1 : (fun r : BitVec 4 => (startRr w).LS (3#2 ++ r)) = fun r => if r = 1 then (3 : W) else if r = 3 then 0x208 else 0 := by
      funext r
      show (if (3#2 ++ r : BitVec 6) = 3#2 ++ 1#4 then (3 : W) else if (3#2 ++ r : BitVec 6) = 3#2 ++ 3#4 then 0x208 else 0) = _
      revert r; decide
    have h2 : (fun r : BitVec 4 => (startRr w).LS (2#2 ++ r)) = fun _ => (0 : W) := by
      funext r
      show (if (2#2 ++ r : BitVec 6) = 3#2 ++ 1#4 then (3 : W) else if (2#2 ++ r : BitVec 6) = 3#2 ++ 3#4 then 0x208 else 0) = _
      revert r; decide
    unfold archOf
    rw [h1, h2]
    rfl
  · show (0x100#32).toNat % 4 = 0
    decide
  · show (0x100#32).toNat / 4 = (0x100#32).toNat / 4
    rfl

/-- `EX 1,200` carries out `LR 2,3`. -/
example (tick : Nat → Bool) : ∃ n s', run e64 tick n (startRr 0x44100200) = .ok s' ∧
    ∃ b : Arch, (b.gr 2 = 0x208 ∧ b.ia = 0x104) ∧ (Ready e64 true b s' ∨ Pend e64 true b s') := by
  obtain ⟨n, s', h1, h2⟩ := C160_execute_rr_partial e64_ok (ready_rr 0x44100200) (fun h => absurd h (by decide))
    ⟨by decide, by decide⟩ (by decide) (by decide) (by decide) (by decide) (by decide) rfl
    ⟨by decide, by decide⟩ tick (by simp)
  exact ⟨n, s', h1, _, by decide, h2⟩

/-- `EX 1,202` carries out `BCR 15,3`. -/
example (tick : Nat → Bool) : ∃ n s', run e64 tick n (startRr 0x44100202) = .ok s' ∧
    ∃ b : Arch, b.ia = 0x208 ∧ (Ready e64 true b s' ∨ Pend e64 true b s') := by
  obtain ⟨n, s', h1, h2⟩ := C160_execute_rr_partial e64_ok (ready_rr 0x44100202) (fun h => absurd h (by decide))
    ⟨by decide, by decide⟩ (by decide) (by decide) (by decide) (by decide) (by decide) rfl
    ⟨by decide, by decide⟩ tick (by simp)
  exact ⟨n, s', h1, _, by decide, h2⟩

/-- `EX 1,204` carries out `BALR 4,3`. -/
example (tick : Nat → Bool) : ∃ n s', run e64 tick n (startRr 0x44100204) = .ok s' ∧
    ∃ b : Arch, (b.gr 4 = 0x80000104 ∧ b.ia = 0x208) ∧ (Ready e64 true b s' ∨ Pend e64 true b s') := by
  obtain ⟨n, s', h1, h2⟩ := C160_execute_balr_partial e64_ok (ready_rr 0x44100204) (fun h => absurd h (by decide))
    ⟨by decide, by decide⟩ (by decide) (by decide) (by decide) (by decide) rfl
    ⟨by decide, by decide⟩ tick (by simp)
  exact ⟨n, s', h1, _, by decide, h2⟩

end Verif.Cpu50
