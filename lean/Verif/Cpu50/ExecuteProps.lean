import Verif.Cpu50.Execute

/-!
# Model 2050: EXECUTE carries out the instruction at the operand address (C160)
-/

namespace Verif.Cpu50
open Verif.S360
attribute [local irreducible] ros

theorem opOf_subject (a : Arch) (r : BitVec 4) (x : Nat) : opOf (a.subject r x) = opOf (a.half x) := by
  unfold Arch.subject opOf
  generalize a.half x = h
  split
  · simp
  · generalize (a.gr r).extractLsb' 0 8 = b
    apply BitVec.eq_of_getLsbD_eq
    intro i hi
    interval_cases i <;> simp [BitVec.getLsbD_extractLsb']

theorem next_ex {a : Arch} (h : (opOf a.inst).toNat = 0x44) : a.next = { a with ia := a.ia + 4 } := by
  unfold Arch.next lenOf
  rw [if_neg (by omega), if_pos (by omega)]
  rfl

theorem operand_ex {a : Arch} (h : (opOf a.inst).toNat = 0x44) : a.operand =
    ea { a with ia := a.ia + 4 } (dig2 a.inst) ((Arch2 a).extractLsb' 12 4) ((Arch2 a).extractLsb' 0 12) := by
  unfold Arch.operand indexOf
  rw [if_pos (by omega)]
  rfl

/-- EXECUTE up to the first microinstruction of its subject instruction. -/
theorem execute_fet {e : Env} {tk : Bool} {a : Arch} {s : S} (ho : EnvOk e)
    (h : Ready e tk a s) (h7 : s.ROAR = 0x148 → s.St.s7 = false) (hia : InStore e a)
    (hex : (opOf a.inst).toNat = 0x44) (hx : a.operand.toNat % 2 = 0) (hl : a.operand.toNat + 4 ≤ 4 * words e)
    (hop : 0x40 ≤ (opOf (a.half a.operand.toNat)).toNat) :
    Ev e tk (FetB e tk a.next (a.subject (dig1 a.inst) a.operand.toNat) (a.half (a.operand.toNat + 2))
      (a.gr ((a.half (a.operand.toNat + 2)).extractLsb' 12 4))
      (decide (a.operand.toNat % 4 = 2) && ((a.half (a.operand.toNat + 2)).extractLsb' 12 4 == 0))) s := by
  rw [next_ex hex]
  refine Ev.bind (fetch_rx7 (Z := True) ho h (by omega) (by omega) hia.rg fun h _ => h7 h) fun s1 h1 => ?_
  refine Ev.bind (to_op40 ho h1.1 (by omega)) fun s2 h2 => ?_
  rw [← operand_ex hex] at h2
  refine Ev.bind (ex_ask ho h2.1 hex (h2.2.1.trans (h1.2.2 trivial)) hx (by omega)) fun s3 h3 => ?_
  have h4 : a.operand.toNat % 4 = 0 ∨ a.operand.toNat % 4 = 2 := by omega
  rcases h4 with h4 | h4
  · refine Ev.bind (ex_even ho h3 h4 (fun m hm => top_digit hm ?_)) fun s4 h4' => ?_
    · rw [opOf_subject]; exact hop
    · rw [decide_eq_false (by omega), Bool.false_and]
      exact h4'.fet ho
  · refine Ev.bind (ex_odd ho h3 h4 hl hop) fun s4 h4' => ?_
    rw [decide_eq_true h4, Bool.true_and]
    exact h4'.fet ho

/-- The instruction `i`, `i1`, fetched. -/
theorem perform_exec {e : Env} {tk : Bool} {a a' : Arch} {i i1 : BitVec 16} {s : S} (ho : EnvOk e)
    (h : FetRX e tk a i i1 s) (hv : perform (4 * words e) a i i1 = some a')
    (hz : ¬ Hazard a (opOf i) (ea a (dig2 i) (i1.extractLsb' 12 4) (i1.extractLsb' 0 12)))
    (hi : InStore e a') : Ev e tk (Bd e tk a') s := by
  unfold perform at hv
  split at hv
  · exact nomatch hv
  · split at hv
    · exact rx_exec ho h hv hz hi
    · split at hv
      · exact rs_exec ho h hv hi
      · split at hv
        · exact si_exec ho h hv hi
        · exact nomatch hv

/-- C160 (partial). EXECUTE carries out the RX, RS or SI instruction at its operand address, with the
low byte of the first register combined into its second byte by OR, and goes on after the EXECUTE.
Missing: subject instructions at a word boundary with the base digit zero, for which it does not hold;
subject instructions of the format SS (for RR see `C160_execute_rr_partial`); a store into the word with the next instruction (`hz`);
and an EXECUTE in the right half of a word while `S7` is on (`h7`). -/
theorem C160_execute_partial {e : Env} {tk : Bool} {a a' : Arch} {s : S} (ho : EnvOk e)
    (h : Ready e tk a s) (h7 : s.ROAR = 0x148 → s.St.s7 = false) (hia : InStore e a)
    (hex : (opOf a.inst).toNat = 0x44) (hx : a.operand.toNat % 2 = 0) (hl : a.operand.toNat + 4 ≤ 4 * words e)
    (hb : a.operand.toNat % 4 = 0 → (a.half (a.operand.toNat + 2)).extractLsb' 12 4 ≠ 0)
    (hv : perform (4 * words e) a.next (a.subject (dig1 a.inst) a.operand.toNat)
      (a.half (a.operand.toNat + 2)) = some a')
    (hz : ¬ Hazard a.next (opOf (a.subject (dig1 a.inst) a.operand.toNat))
      (ea a (dig2 (a.subject (dig1 a.inst) a.operand.toNat)) ((a.half (a.operand.toNat + 2)).extractLsb' 12 4)
        ((a.half (a.operand.toNat + 2)).extractLsb' 0 12)))
    (hi : InStore e a') (tick : Nat → Bool) (ht : ∀ i, tick i = true → tk = true) :
    ∃ n s', run e tick n s = .ok s' ∧ (Ready e tk a' s' ∨ Pend e tk a' s') := by
  have hop : 0x40 ≤ (opOf (a.half a.operand.toNat)).toNat := by
    rw [← opOf_subject a (dig1 a.inst)]
    by_cases hc : (opOf (a.subject (dig1 a.inst) a.operand.toNat)).toNat < 0x40
    · unfold perform at hv
      rw [if_pos hc] at hv
      exact nomatch hv
    · omega
  refine ((execute_fet ho h h7 hia hex hx hl hop).bind fun s1 h1 => ?_).run tick ht
  refine perform_exec ho (FetB.rx h1 ?_) hv hz hi
  by_cases h4 : a.operand.toNat % 4 = 2
  · rw [decide_eq_true h4, Bool.true_and]
  · rw [decide_eq_false h4, Bool.false_and]
    exact (beq_eq_false_iff_ne.2 (hb (by omega))).symm

/-! ### The base digit zero at a word boundary -/

/-- Words 112, or 110 and 122: an address with `v` in the place of the base. -/
theorem fetB_op4 {e : Env} {tk : Bool} {a : Arch} {i i1 : BitVec 16} {v : W} {s : S} (ho : EnvOk e)
    (h : FetB e tk a i i1 v false s) (hop : (opOf i).toNat / 16 = 4) :
    Ev e tk (fun s' => Op4 e tk a i (((if dig2 i = 0 then 0 else a.gr (dig2 i)) + v +
      (i1.extractLsb' 0 12).setWidth 32) &&& 0xffffff) s' ∧ s'.St.s7 = true) s := by
  have hro := h.roar
  have h64 : (opOf i).toNat / 64 = 1 := by omega
  rw [hop, decide_eq_true h64, Bool.and_true] at hro
  have hgx : s.LS (s.FN ++ s.J) = a.gr (dig2 i) := by
    rw [h.j, show s.FN = 3#2 from h.fn, gr_of h.arch]
  have hg1 : s.LS (s.FN ++ s.MD) = a.gr (dig1 i) := by
    rw [h.md, show s.FN = 3#2 from h.fn, gr_of h.arch]
  have hia : a.ia = s.IA := by rw [← h.arch]; rfl
  have hd := h.d
  have h0 := h.s0
  have h1 := h.s1
  have hl := h.l
  generalize hD : (i1.extractLsb' 0 12).setWidth 32 = d at *
  by_cases hx : dig2 i = 0
  · rw [if_pos hx]
    rw [hx] at h0
    rw [h0, h1] at hro
    have hz : (0 : W) + v + d = s.L + (s.M &&& 65535#32) := by rw [hd, hl]; simp
    rw [hz]
    refine Ev.plain ho h.calm (n := 0x112) hro (by rw [w112]; decide) (fun t => x112 e _ _)
      (fun t => by unfold memPart; rfl) fun t ht hc => .now ?_
    exact ⟨⟨h.atEnd.upd hc h.arch rfl rfl rfl rfl rfl rfl rfl, h.fn, h.bs, rfl, rfl, h.md, h.ilc,
      h.g, h.g1, h.g2, rfl, hg1, by rw [hia]; exact low24 _ _, rfl, by simp only [bg, h.lo]⟩, h.s7⟩
  · rw [if_neg hx]
    rw [show (dig2 i == 0) = false by simpa using hx] at h0
    rw [h0, h1] at hro
    have hz : a.gr (dig2 i) + v + d =
        s.LS (s.FN ++ s.J) + (s.L + (s.M &&& 65535#32)) := by
      rw [hd, hgx, hl, BitVec.add_assoc]
    rw [hz]
    refine Ev.plain ho h.calm (n := 0x110) hro (by rw [w110]; decide) (fun t => x110 e _ _)
      (fun t => by unfold memPart; rfl) fun t ht hc => ?_
    refine Ev.plain ho hc (n := 0x122) rfl (by rw [w122]; decide) (fun t => x122 e _ _)
      (fun t => by unfold memPart; rfl) fun t2 ht2 hc2 => .now ?_
    exact ⟨⟨h.atEnd.upd hc2 h.arch rfl rfl rfl rfl rfl rfl rfl, h.fn, h.bs, rfl, rfl, h.md, h.ilc,
      h.g, h.g1, h.g2, rfl, hg1, by rw [hia]; exact low24 _ _, rfl, by simp only [bg, h.lo]⟩, h.s7⟩

/-- The result of LOAD ADDRESS with general register 0 as the base. -/
def wrongLA (a : Arch) (i i1 : BitVec 16) : Arch :=
  a.put (dig1 i) (((if dig2 i = 0 then 0 else a.gr (dig2 i)) + a.gr 0 +
    (i1.extractLsb' 0 12).setWidth 32) &&& 0xffffff)

theorem add_ne (x y d : W) (h : y &&& 0xffffff ≠ 0) :
    (x + 0 + d) &&& 0xffffff ≠ (x + y + d) &&& 0xffffff := by
  intro hc
  apply h
  have h1 := congrArg BitVec.toNat hc
  have h2 := and24 (x + 0 + d)
  have h3 := and24 (x + y + d)
  have h4 := and24 y
  apply BitVec.eq_of_toNat_eq
  rw [show (y &&& 0xffffff).toNat = _ from h4]
  rw [show ((x + 0 + d) &&& 0xffffff).toNat = _ from h2, show ((x + y + d) &&& 0xffffff).toNat = _ from h3] at h1
  simp only [BitVec.toNat_add] at h1
  have : (0 : W).toNat = 0 := rfl
  omega

/-- C160 is violated: for every LOAD ADDRESS at a word boundary with the base digit zero, EXECUTE adds
general register 0 as if it were the base, and gives a wrong result whenever the address in that register
is not zero. -/
theorem C160_violated_base_zero {e : Env} {tk : Bool} {a : Arch} {s : S} (ho : EnvOk e)
    (h : Ready e tk a s) (h7 : s.ROAR = 0x148 → s.St.s7 = false) (hia : InStore e a)
    (hex : (opOf a.inst).toNat = 0x44) (hx : a.operand.toNat % 4 = 0) (hl : a.operand.toNat + 4 ≤ 4 * words e)
    (hop : (opOf (a.half a.operand.toNat)).toNat = 0x41)
    (hb : (a.half (a.operand.toNat + 2)).extractLsb' 12 4 = 0) (hi : InStore e a.next)
    (h0 : a.gr 0 &&& 0xffffff ≠ 0)
    (tick : Nat → Bool) (ht : ∀ i, tick i = true → tk = true) :
    (∃ n s', run e tick n s = .ok s' ∧
      Bd e tk (wrongLA a.next (a.subject (dig1 a.inst) a.operand.toNat) (a.half (a.operand.toNat + 2))) s') ∧
    ∀ b, perform (4 * words e) a.next (a.subject (dig1 a.inst) a.operand.toNat)
        (a.half (a.operand.toNat + 2)) = some b →
      b.gr (dig1 (a.subject (dig1 a.inst) a.operand.toNat)) ≠
        (wrongLA a.next (a.subject (dig1 a.inst) a.operand.toNat) (a.half (a.operand.toNat + 2))).gr
          (dig1 (a.subject (dig1 a.inst) a.operand.toNat)) := by
  have hs := opOf_subject a (dig1 a.inst) a.operand.toNat
  constructor
  · refine ((execute_fet ho h h7 hia hex (by omega) hl (by omega)).bind fun s1 h1 => ?_).run tick ht
    rw [decide_eq_false (by omega), Bool.false_and, hb] at h1
    refine Ev.bind (fetB_op4 ho h1 (by rw [hs]; omega)) fun s2 h2 => ?_
    exact la_exec ho h2.1 (by rw [hs]; exact hop) hi
  · intro b hv
    unfold perform at hv
    rw [hs, if_neg (by omega), if_pos (by omega)] at hv
    unfold rx at hv
    rw [hop] at hv
    obtain rfl := Option.some.inj hv
    unfold ea wrongLA Arch.put
    rw [hb]
    simp only [if_true]
    exact add_ne _ _ _ h0

/-! ### Concrete cases -/

/-- `EX 1,202`; at 202 `LA 2,7`. -/
def exOdd : Nat → W
  | 0x40 => 0x44100202
  | 0x80 => 0x00004120
  | 0x81 => 0x00070000
  | _ => 0

/-- Not vacuous (C160, partial): 7 comes to general register 2. -/
example (tick : Nat → Bool) : ∃ n s', run e64 tick n (start exOdd 0 fun _ => 0) = .ok s' ∧
    ∃ b : Arch, b.gr 2 = 7 ∧ b.ia = 0x104 ∧ (Ready e64 true b s' ∨ Pend e64 true b s') := by
  obtain ⟨n, s', h1, h2⟩ := C160_execute_partial (tk := true) (a := arch0 exOdd 0 fun _ => 0)
    (a' := ((arch0 exOdd 0 fun _ => 0).next).put 2 7) e64_ok
    (start_ready true exOdd 0 fun _ => 0) (fun h => absurd h (by decide)) ⟨by decide, by decide⟩
    (by decide) (by decide) (by decide) (fun h => absurd h (by decide)) rfl
    (fun h => absurd h.1 (by decide)) ⟨by decide, by decide⟩ tick (by simp)
  exact ⟨n, s', h1, _, rfl, by decide, h2⟩

/-- The same with `EX` of `LA 2,7` at 200, general register 0 holding 5. -/
def exEven : Nat → W
  | 0x40 => 0x44100200
  | 0x80 => 0x41200007
  | _ => 0

/-- The processor before it. -/
def startG : S := { start exEven 0 (fun _ => 0) with LS := fun k => if k = 3#2 ++ 0#4 then 5 else 0 }

/-- Not vacuous (C160, violation): 12 comes to general register 2. -/
example (tick : Nat → Bool) : ∃ n s', run e64 tick n startG = .ok s' ∧
    ∃ b : Arch, b.gr 2 = 12 ∧ Bd e64 true b s' := by
  have hr : Ready e64 true { arch0 exEven 0 (fun _ => 0) with gr := fun r => if r = 0 then 5 else 0 } startG := by
    refine .even ⟨rfl, rfl, rfl, ?_, (fun h => nomatch h), fun h => nomatch h⟩ ?_ (.inl rfl) ?_ ?_ ?_
    · show (0x100#32).toNat ≤ _
      decide
    · show (0#8).toNat < 16
      decide
    · have h1 : (fun r : BitVec 4 => startG.LS (3#2 ++ r)) = fun r => if r = 0 then (5 : W) else 0 := by
        funext r
        show (if (3#2 ++ r : BitVec 6) = 3#2 ++ 0#4 then (5 : W) else 0) = _
        revert r; decide
      have h2 : (fun r : BitVec 4 => startG.LS (2#2 ++ r)) = fun _ => (0 : W) := by
        funext r
        show (if (2#2 ++ r : BitVec 6) = 3#2 ++ 0#4 then (5 : W) else 0) = _
        revert r; decide
      unfold archOf
      rw [h1, h2]
      rfl
    · show (0x100#32).toNat % 4 = 0
      decide
    · show (0x100#32).toNat / 4 = (0x100#32).toNat / 4
      rfl
  obtain ⟨⟨n, s', h1, h2⟩, _⟩ := C160_violated_base_zero e64_ok hr (fun h => absurd h (by decide))
    ⟨by decide, by decide⟩ (by decide) (by decide) (by decide) (by decide) (by decide) ⟨by decide, by decide⟩
    (by decide) tick (by simp)
  exact ⟨n, s', h1, _, by decide, h2⟩

end Verif.Cpu50
