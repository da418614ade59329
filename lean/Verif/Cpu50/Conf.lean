import Verif.Cpu50.Isa2
import Mathlib.Tactic.IntervalCases

/-!
# System/360: what an instruction cannot change

No instruction of `step` changes the left half of the PSW or a storage key, nor a word of a
block whose key is not the protection key.
-/

namespace Verif.S360

/-- What `b` has in common with `a`. -/
structure Same (a b : Arch) : Prop where
  key : b.key = a.key
  amwp : b.amwp = a.amwp
  mask : b.mask = a.mask
  sys : b.sys = a.sys
  keys : b.keys = a.keys
  mem : ∀ i, a.key ≠ 0 → a.keys (i / 512) ≠ a.key.setWidth 8 → b.mem i = a.mem i

theorem Same.refl (a : Arch) : Same a a := ⟨rfl, rfl, rfl, rfl, rfl, fun _ _ _ => rfl⟩

theorem Same.trans {a b c : Arch} (h : Same a b) (h2 : Same b c) : Same a c :=
  ⟨h2.key.trans h.key, h2.amwp.trans h.amwp, h2.mask.trans h.mask, h2.sys.trans h.sys,
    h2.keys.trans h.keys, fun i h3 h4 => by
      rw [h2.mem i (by rw [h.key]; exact h3) (by rw [h.keys, h.key]; exact h4), h.mem i h3 h4]⟩

/-- Registers, condition code, program mask and address do not matter. -/
theorem Same.regs {a b : Arch} (h : Same a b) (gr fr : BitVec 4 → BitVec 32) (cc : BitVec 2)
    (pm : BitVec 4) (ia : BitVec 32) :
    Same a { b with gr := gr, fr := fr, cc := cc, pm := pm, ia := ia } :=
  ⟨h.key, h.amwp, h.mask, h.sys, h.keys, h.mem⟩

/-- A store in a block with the right key. -/
theorem Same.store {a : Arch} {x : BitVec 32} (h : a.permits x = true) (v : BitVec 32) :
    Same a { a with mem := fun i => if i = x.toNat / 4 then v else a.mem i } := by
  refine ⟨rfl, rfl, rfl, rfl, rfl, fun i h1 h2 => if_neg fun h3 => ?_⟩
  subst h3
  rw [Nat.div_div_eq_div_mul] at h2
  simp only [Arch.permits, Bool.or_eq_true, beq_iff_eq] at h
  exact h.elim h1 h2

theorem fixed_same {a b : Arch} {r : BitVec 4} {v : Int} (h : fixed a r v = some b) : Same a b := by
  unfold fixed at h
  split at h
  · obtain rfl := Option.some.inj h; exact (Same.refl a).regs _ _ _ _ _
  · split at h
    · contradiction
    · obtain rfl := Option.some.inj h; exact (Same.refl a).regs _ _ _ _ _

theorem rr_same {a b : Arch} {op : BitVec 8} {r1 r2 : BitVec 4} (h : rr a op r1 r2 = some b) :
    Same a b := by
  unfold rr at h
  split at h
  all_goals first
    | exact fixed_same h
    | contradiction
    | (obtain rfl := Option.some.inj h
       first
         | exact (Same.refl a).regs _ _ _ _ _
         | (split <;> exact (Same.refl a).regs _ _ _ _ _))

theorem rx_same {lim : Nat} {a b : Arch} {op : BitVec 8} {r1 : BitVec 4} {x : BitVec 32}
    (h : rx lim a op r1 x = some b) : Same a b := by
  unfold rx at h
  split at h
  all_goals first
    | (obtain rfl := Option.some.inj h
       first
         | exact (Same.refl a).regs _ _ _ _ _
         | (split <;> exact (Same.refl a).regs _ _ _ _ _))
    | skip
  all_goals split at h
  all_goals first
    | contradiction
    | exact fixed_same h
    | (obtain rfl := Option.some.inj h
       first
         | exact (Same.refl a).regs _ _ _ _ _
         | (rename_i hp; exact Same.store hp.2 _))
    | skip
  unfold rx.rxWord at h
  split at h
  all_goals first
    | contradiction
    | exact fixed_same h
    | (obtain rfl := Option.some.inj h; exact (Same.refl a).regs _ _ _ _ _)

theorem rs_same {a b : Arch} {op : BitVec 8} {r1 r3 : BitVec 4} {x : BitVec 32}
    (h : rs a op r1 r3 x = some b) : Same a b := by
  unfold rs at h
  split at h
  all_goals first
    | contradiction
    | (obtain rfl := Option.some.inj h
       first
         | exact (Same.refl a).regs _ _ _ _ _
         | (unfold branchIndex; split <;> exact (Same.refl a).regs _ _ _ _ _))
    | (split at h
       · obtain rfl := Option.some.inj h; exact (Same.refl a).regs _ _ _ _ _
       · contradiction)

theorem si_same {lim : Nat} {a b : Arch} {op m : BitVec 8} {x : BitVec 32}
    (h : si lim a op m x = some b) : Same a b := by
  unfold si at h
  split at h
  · split at h
    all_goals first
      | contradiction
      | (obtain rfl := Option.some.inj h; exact (Same.refl a).regs _ _ _ _ _)
      | (split at h
         · rename_i hp
           obtain rfl := Option.some.inj h
           first
             | exact Same.store hp _
             | exact (Same.store hp _).regs _ _ _ _ _
         · contradiction)
  · contradiction

/-- One instruction. -/
theorem step_same {lim : Nat} {a b : Arch} (h : step lim a = some b) : Same a b := by
  have h0 : ∀ ia, Same a { a with ia := ia } := fun ia => (Same.refl a).regs _ _ _ _ _
  unfold step at h
  split at h
  · exact (h0 _).trans (rr_same h)
  · split at h
    · exact (h0 _).trans (rx_same h)
    · split at h
      · exact (h0 _).trans (rs_same h)
      · split at h
        · exact (h0 _).trans (si_same h)
        · contradiction

theorem Same.kept {a b : Arch} (h : Same a b) (hk : a.Kept) : b.Kept := by
  unfold Arch.Kept at hk ⊢
  rw [h.sys, h.mask, h.key, h.amwp, hk]

theorem load_kept (a : Arch) (v w : BitVec 32) : (loadPsw a v w).Kept := by
  unfold Arch.Kept loadPsw
  show v.extractLsb' 16 16 = v.extractLsb' 24 8 ++ v.extractLsb' 20 4 ++ v.extractLsb' 16 4
  apply BitVec.eq_of_getLsbD_eq; intro i hi
  simp only [BitVec.getLsbD_append]
  interval_cases i <;> simp

theorem interrupt_kept (a : Arch) (p : Nat) (c : BitVec 16) (l : BitVec 2) :
    (interrupt a p c l).Kept := load_kept _ _ _

/-- The copy of the PSW stays up to date. -/
theorem stepI_kept {lim : Nat} {a b : Arch} (hk : a.Kept) (h : stepI lim a = some b) : b.Kept := by
  unfold stepI at h
  split at h
  · rename_i hs
    obtain rfl := Option.some.inj h
    exact (step_same hs).kept hk
  · split at h
    · obtain rfl := Option.some.inj h; exact interrupt_kept _ _ _ _
    · split at h
      · obtain rfl := Option.some.inj h; exact load_kept _ _ _
      · split at h
        · obtain rfl := Option.some.inj h; exact interrupt_kept _ _ _ _
        · contradiction

/-- Any number of instructions. -/
theorem steps_same {lim : Nat} (st : Nat → Arch → Option Arch) (h0 : ∀ a, st 0 a = some a)
    (h1 : ∀ k a, st (k + 1) a = (step lim a).bind (st k)) :
    ∀ (k : Nat) {a b : Arch}, st k a = some b → Same a b
  | 0, a, b, h => by
    rw [h0] at h
    obtain rfl := Option.some.inj h
    exact .refl a
  | k + 1, a, b, h => by
    rw [h1] at h
    cases hs : step lim a with
    | none => rw [hs] at h; contradiction
    | some c =>
      rw [hs] at h
      exact (step_same hs).trans (steps_same st h0 h1 k h)

end Verif.S360
