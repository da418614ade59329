import Verif.Cpu50.Step

/-!
# Model 2050: programs

`prog_exec`: any number of instructions of the specification, with or without interruptions
by the timer.  `selfmod_exec`: a word stored over the next instruction is not executed.
-/

namespace Verif.S360

/-- `k` instructions. -/
def steps (lim : Nat) : Nat → Arch → Option Arch
  | 0, a => some a
  | k + 1, a => (step lim a).bind (steps lim k)

end Verif.S360

namespace Verif.Cpu50
open Verif.S360
attribute [local irreducible] ros

/-- Programs. -/
theorem prog_exec {e : Env} {tk : Bool} (ho : EnvOk e) : ∀ (k : Nat) {a : Arch} {s : S},
    Bd e tk a s →
    (∀ j, j ≤ k → ∃ b, steps (4 * words e) j a = some b ∧ InStore e b) →
    (∀ j b, j < k → steps (4 * words e) j a = some b → ¬ Selfmod b) →
    Ev e tk (fun s' => ∃ j b, j ≤ k ∧ steps (4 * words e) j a = some b ∧
      ((j = k ∧ Ready e tk b s') ∨ Pend e tk b s')) s
  | 0, a, s, h, _, _ => by
    refine .now ⟨0, a, Nat.le_refl _, rfl, ?_⟩
    rcases h with h | h
    · exact .inl ⟨rfl, h⟩
    · exact .inr h
  | k + 1, a, s, h, hin, hz => by
    rcases h with h | h
    · obtain ⟨b0, hb0, hi0⟩ := hin 0 (by omega)
      obtain rfl := Option.some.inj hb0
      obtain ⟨b1, hb1, hi1⟩ := hin 1 (by omega)
      have hst : step (4 * words e) a = some b1 := by
        simp only [steps] at hb1
        cases hs : step (4 * words e) a with
        | none => rw [hs] at hb1; exact nomatch hb1
        | some c => rw [hs] at hb1; exact hb1
      have hs1 : ∀ j, steps (4 * words e) (j + 1) a = steps (4 * words e) j b1 := by
        intro j; simp only [steps, hst, Option.bind_some]
      refine Ev.bind (step_exec ho h hi0 hst (hz 0 a (by omega) rfl) hi1) fun s1 h1 => ?_
      refine Ev.bind (prog_exec ho k h1 (fun j hj => ?_) (fun j b hj hb => ?_)) fun s2 h2 => .now ?_
      · obtain ⟨b, hb, hib⟩ := hin (j + 1) (by omega)
        exact ⟨b, by rw [← hs1]; exact hb, hib⟩
      · exact hz (j + 1) b (by omega) (by rw [hs1]; exact hb)
      · obtain ⟨j, b, hj, hb, h3⟩ := h2
        refine ⟨j + 1, b, by omega, by rw [hs1]; exact hb, ?_⟩
        rcases h3 with ⟨h3, h4⟩ | h3
        · exact .inl ⟨by omega, h4⟩
        · exact .inr h3
    · exact .now ⟨0, a, Nat.zero_le _, rfl, .inr h⟩

/-- The program visible registers and storage between two instructions. Only the address of
the next instruction may still have to be taken from the branch address. -/
theorem Ready.visible {e : Env} {tk : Bool} {a : Arch} {s : S} (h : Ready e tk a s) :
    { archOf s with ia := a.ia } = a := by
  cases h with
  | odd _ _ _ arch => rw [← arch]
  | even _ _ _ arch => rw [← arch]
  | again _ _ _ arch => rw [← arch]
  | branch _ _ _ arch => rw [← arch]; rfl

/-- What the processor does with an instruction which overwrites the next one: the RR
instruction which was there *before* the store is executed after it. -/
theorem selfmod_exec {e : Env} {a a' b : Arch} {s : S} (ho : EnvOk e)
    (h : Ready e false a s) (hia : InStore e a) (hv : step (4 * words e) a = some a')
    (hz : Selfmod a) (hi : InStore e a') (old : BitVec 16) (hold : old = a.half a'.ia.toNat)
    (hop : (opOf old).toNat < 0x40)
    (hb : rr { a' with ia := a'.ia + 2 } (opOf old) (dig1 old) (dig2 old) = some b)
    (hib : InStore e b) : Ev e false (Bd e false b) s := by
  obtain ⟨hz1, hz2, hz3⟩ := hz
  unfold step at hv
  rw [if_neg (by omega), if_pos (by omega)] at hv
  unfold rx at hv
  rw [hz1] at hv
  simp only [] at hv
  split at hv
  · rename_i h1
    have hw := h1.1
    obtain rfl := Option.some.inj hv
    have h2 : Arch.within (4 * words e) 4 _ = true := hw
    simp only [Arch.within, Bool.and_eq_true, beq_iff_eq, decide_eq_true_eq] at h2
    refine Ev.bind (fetch_rx0 ho h (by omega) (by omega) hia.rg) fun s1 f1 => ?_
    refine Ev.bind (to_opx0 ho f1.1 (by omega) hw) fun s2 f2 => ?_
    refine Ev.bind (st_stale ho f2.1 (f2.2.trans f1.2) hz1 h1.2 h2.2 hz2 (hi.same rfl)) fun s3 f3 => ?_
    have hh : (a.mem ((a.ia + 4).toNat / 4)).extractLsb' 0 16 = old := by
      rw [hold]
      show _ = a.half (a.ia + 4).toNat
      unfold Arch.half
      rw [if_neg (by have : (a.ia + 4).toNat % 4 = 2 := hz2; omega)]
    refine Ev.bind (fetch_buf_rr ho f3.ask f3.f f3.roar f3.arch f3.ia f3.l f3.syl
      (by rw [hh]; exact hop) hi.rg) fun s4 f4 => ?_
    rw [hh] at f4
    exact rr_exec ho f4 hb hib
  · exact nomatch hv

end Verif.Cpu50
