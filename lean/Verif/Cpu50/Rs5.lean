import Verif.Cpu50.Rs4

/-!
# Model 2050: RS instructions
-/

namespace Verif.Cpu50
open Verif.S360
attribute [local irreducible] ros

/-- BXH. -/
theorem bxh_exec {e : Env} {tk : Bool} {a : Arch} {i : BitVec 16} {x : W} {s : S} (ho : EnvOk e)
    (h : Op8 e tk a i x s) (hop : (opOf i).toNat = 0x86)
    (hi : InStore e (branchIndex a (dig1 i) (dig2 i) x true)) :
    Ev e tk (Bd e tk (branchIndex a (dig1 i) (dig2 i) x true)) s := by
  have hro := h.roar
  rw [hop] at hro
  have hx := h.r
  refine Ev.plain (n := 0x71a) ho h.ae.calm hro (by rw [w71a]; decide) (fun t => x71a e _ _)
    (fun t => by unfold memPart; rfl) fun t ht hc => ?_
  refine bx_run (i := i) ho (h.ae.upd hc h.ae.arch rfl rfl rfl rfl rfl rfl rfl) h.fn h.md h.j h.l ?_ rfl hi ?_
  · show s.LS (s.FN ++ s.J) = _
    rw [h.fn, h.j]; exact gr_of h.ae.arch _
  · unfold branchIndex
    rw [jump_and _ _ _ hx]
    by_cases hd : decide ((a.gr (dig2 i ||| 1)).toInt < (a.gr (dig1 i) + a.gr (dig2 i)).toInt) = true
    · rw [if_pos hd, if_pos hd.symm]; rfl
    · rw [if_neg hd, if_neg (fun h => hd h.symm)]

/-- BXLE. -/
theorem bxle_exec {e : Env} {tk : Bool} {a : Arch} {i : BitVec 16} {x : W} {s : S} (ho : EnvOk e)
    (h : Op8 e tk a i x s) (hop : (opOf i).toNat = 0x87)
    (hi : InStore e (branchIndex a (dig1 i) (dig2 i) x false)) :
    Ev e tk (Bd e tk (branchIndex a (dig1 i) (dig2 i) x false)) s := by
  have hro := h.roar
  rw [hop] at hro
  have hx := h.r
  refine Ev.plain (n := 0x71e) ho h.ae.calm hro (by rw [w71e]; decide) (fun t => x71e e _ _)
    (fun t => by unfold memPart; rfl) fun t ht hc => ?_
  refine bx_run (i := i) ho (h.ae.upd hc h.ae.arch rfl rfl rfl rfl rfl rfl rfl) h.fn h.md h.j h.l ?_ rfl hi ?_
  · show s.LS (s.FN ++ s.J) = _
    rw [h.fn, h.j]; exact gr_of h.ae.arch _
  · unfold branchIndex
    rw [jump_and _ _ _ hx]
    by_cases hd : decide ((a.gr (dig2 i ||| 1)).toInt < (a.gr (dig1 i) + a.gr (dig2 i)).toInt) = false
    · rw [if_pos hd, if_pos hd.symm]; rfl
    · rw [if_neg hd, if_neg (fun h => hd h.symm)]

/-- Shift with sign as division. -/
theorem sar_div {w : Nat} (v : BitVec w) (n : Nat) :
    (v.sshiftRight n).toInt = v.toInt / 2 ^ n := by
  rw [BitVec.toInt_sshiftRight, Int.shiftRight_eq_div_pow]; norm_cast

theorem sar_ofInt {w : Nat} (v : BitVec w) (n : Nat) :
    BitVec.ofInt w (v.toInt / 2 ^ n) = v.sshiftRight n := by
  rw [← sar_div, BitVec.ofInt_toInt]

theorem even_and (r : BitVec 4) (h : r.toNat % 2 = 0) : r &&& 1#4 = 0#4 := by
  revert r; decide

theorem putPair_ia (a : Arch) (r : BitVec 4) (v : BitVec 64) : (a.putPair r v).ia = a.ia := rfl

/-- Every RS instruction of the specification. -/
theorem rs_exec {e : Env} {tk : Bool} {a a' : Arch} {i i1 : BitVec 16} {s : S} (ho : EnvOk e)
    (h : FetRX e tk a i i1 s)
    (hv : rs a (opOf i) (dig1 i) (dig2 i)
      (ea a 0 (i1.extractLsb' 12 4) (i1.extractLsb' 0 12)) = some a')
    (hi : InStore e a') : Ev e tk (Bd e tk a') s := by
  have h8 := to_op8 ho h
  generalize ea a 0 (i1.extractLsb' 12 4) (i1.extractLsb' 0 12) = x at *
  unfold rs at hv
  split at hv <;> rename_i heq
  · obtain rfl := Option.some.inj hv
    exact Ev.bind (h8 (by rw [heq])) fun s' h' => bxh_exec ho h' heq hi
  · obtain rfl := Option.some.inj hv
    exact Ev.bind (h8 (by rw [heq])) fun s' h' => bxle_exec ho h' heq hi
  · obtain rfl := Option.some.inj hv
    exact Ev.bind (h8 (by rw [heq])) fun s' h' => srl_exec ho h' heq (hi.same rfl)
  · obtain rfl := Option.some.inj hv
    exact Ev.bind (h8 (by rw [heq])) fun s' h' => sll_exec ho h' heq (hi.same rfl)
  · obtain rfl := Option.some.inj hv
    rw [sar_ofInt, ← sar_div] at hi ⊢
    exact Ev.bind (h8 (by rw [heq])) fun s' h' => sra_exec ho h' heq (hi.same rfl)
  · split at hv
    · rename_i hr
      obtain rfl := Option.some.inj hv
      exact Ev.bind (h8 (by rw [heq])) fun s' h' => srdl_exec ho h' heq (hi.same rfl) (even_and _ hr)
    · exact nomatch hv
  · split at hv
    · rename_i hr
      obtain rfl := Option.some.inj hv
      exact Ev.bind (h8 (by rw [heq])) fun s' h' => sldl_exec ho h' heq (hi.same rfl) (even_and _ hr)
    · exact nomatch hv
  · split at hv
    · rename_i hr
      obtain rfl := Option.some.inj hv
      rw [sar_ofInt, ← sar_div] at hi ⊢
      exact Ev.bind (h8 (by rw [heq])) fun s' h' => srda_exec ho h' heq (hi.same rfl) (even_and _ hr)
    · exact nomatch hv
  · exact nomatch hv

end Verif.Cpu50
