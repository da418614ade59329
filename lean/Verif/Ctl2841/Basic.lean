import Verif.Ctl2841.Ros
import Verif.Ctl2844.Boot
import Verif.Ctl2844.Bound

/-!
# The 2841: drives at rest
-/

namespace Verif.Ctl2841
open Verif.Ctl2844

theorem walkOne_calm (c : Ctx) (i : BitVec 3) (hf : c.FC &&& 0x04#8 = 0#8) (hq : ∀ d, c.disk i = some d → d.attn = false) :
    walkOne c i = .ok { c with disk := fun j => if j = i then turn c.disk i else c.disk j } := by
  have hg : gated c i = false := by
    unfold gated
    simp [hf]
  unfold walkOne
  cases hd : c.disk i with
  | none =>
    have : (fun j => if j = i then turn c.disk i else c.disk j) = c.disk := by
      funext j
      split
      · next h => rw [h]; unfold turn; rw [hd]; rfl
      · rfl
    rw [this]
  | some d =>
    have ha := hq d hd
    have ht : turn c.disk i = some (Dasd.stepDisk d).1 := by unfold turn; rw [hd]; rfl
    simp only [hg, Bool.false_eq_true, if_false, Out.bind_ok]
    unfold attention setDisk
    simp only [if_true]
    have : Dasd.checkAttn (Dasd.stepDisk d).1 = false := by unfold Dasd.checkAttn; rw [step_attn, ha]
    rw [this, ht]
    rfl

theorem walkFrom_calm (l : List (BitVec 3)) (hl : l.Nodup) (c : Ctx) (hf : c.FC &&& 0x04#8 = 0#8)
    (hq : Quiet c.disk) :
    walkFrom c l = .ok { c with disk := fun j => if j ∈ l then turn c.disk j else c.disk j } := by
  induction l generalizing c with
  | nil => simp [walkFrom]
  | cons i is ih =>
    obtain ⟨hi, hn⟩ := List.nodup_cons.1 hl
    unfold walkFrom
    rw [walkOne_calm c i hf (hq i), Out.bind_ok]
    rw [ih hn { c with disk := fun j => if j = i then turn c.disk i else c.disk j } hf ?_]
    · congr 1
      have : (fun j => if j ∈ is then turn (fun j => if j = i then turn c.disk i else c.disk j) j
            else if j = i then turn c.disk i else c.disk j)
          = fun j => if j ∈ i :: is then turn c.disk j else c.disk j := by
        funext j
        by_cases hj : j = i
        · subst hj
          simp [hi]
        · by_cases hm : j ∈ is <;> simp [hj, hm, turn]
      rw [this]
    · intro j d hd
      dsimp only at hd
      split at hd
      · exact hq.turn i d hd
      · exact hq j d hd

/-- With no drive reading or writing and none asking for attention, the drives turn and nothing
else happens. -/
theorem walk_calm (c : Ctx) (hf : c.FC &&& 0x04#8 = 0#8) (hq : Quiet c.disk) :
    walk c = .ok { c with SC := 0#8, disk := turn c.disk } := by
  unfold walk
  rw [walkFrom_calm _ (by decide) { c with SC := 0#8 } hf hq]
  congr 1
  congr 1
  funext j
  rcases bv3_cases j with h | h | h | h | h | h | h | h <;> subst h <;> simp

/-- One microinstruction with the drives at rest. -/
theorem step_calm (c : Ctx) (n : Nat) (hn : n < 4096) (hw : c.WX = BitVec.ofNat 16 n) (hf : c.FC &&& 0x04#8 = 0#8)
    (hq : Quiet c.disk) : step ros c = exec (ros n) { c with SC := 0#8, disk := turn c.disk } := by
  unfold step
  rw [walk_calm c hf hq, Out.bind_ok]
  have : ({ c with SC := 0#8, disk := turn c.disk } : Ctx).WX.toNat = n := by
    show c.WX.toNat = n
    rw [hw, BitVec.toNat_ofNat]
    exact Nat.mod_eq_of_lt (by omega)
  rw [this, if_pos hn]

end Verif.Ctl2841
