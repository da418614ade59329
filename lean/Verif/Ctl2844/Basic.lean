import Verif.Ctl2844.Ros

/-!
# The 2844: drives at rest, and the bits of a byte
-/

namespace Verif.Ctl2844

theorem bv3_cases (i : BitVec 3) :
    i = 0#3 ∨ i = 1#3 ∨ i = 2#3 ∨ i = 3#3 ∨ i = 4#3 ∨ i = 5#3 ∨ i = 6#3 ∨ i = 7#3 := by
  revert i
  decide

/-- Every drive moved on by one step. -/
def turn (disk : BitVec 3 → Option Dasd.S) (i : BitVec 3) : Option Dasd.S :=
  (disk i).map fun d => (Dasd.stepDisk d).1

theorem step_attn (d : Dasd.S) : (Dasd.stepDisk d).1.attn = d.attn := by
  unfold Dasd.stepDisk
  split
  · rfl
  · dsimp only
    split <;> rfl

theorem step_opened (d : Dasd.S) : (Dasd.stepDisk d).1.opened = d.opened := by
  unfold Dasd.stepDisk
  split
  · rfl
  · dsimp only
    split <;> rfl

/-- No drive asks for attention. -/
def Quiet (disk : BitVec 3 → Option Dasd.S) : Prop := ∀ i d, disk i = some d → d.attn = false

theorem Quiet.turn {disk : BitVec 3 → Option Dasd.S} (h : Quiet disk) : Quiet (turn disk) := by
  intro i d hd
  unfold Ctl2844.turn at hd
  cases hx : disk i with
  | none => rw [hx] at hd; cases hd
  | some e =>
    rw [hx] at hd
    cases hd
    rw [step_attn]
    exact h i e hx

theorem turn_isSome (disk : BitVec 3 → Option Dasd.S) (i : BitVec 3) : (turn disk i).isSome = (disk i).isSome := by
  unfold turn
  cases disk i <;> rfl

theorem walkOne_calm (c : Ctx) (i : BitVec 3) (hf : c.FC &&& 0x04#8 = 0#8) (hq : ∀ d, c.disk i = some d → d.attn = false) :
    walkOne c i = .ok { c with disk := fun j => if j = i then turn c.disk i else c.disk j } := by
  have hg : gated c i = false := by
    unfold gated
    simp [hf]
  unfold walkOne
  cases hd : c.disk i with
  | none =>
    have : (fun j => if j = i then turn c.disk i else c.disk j) = c.disk := by
      funext j
      split
      · next h => rw [h]; unfold turn; rw [hd]; rfl
      · rfl
    rw [this]
  | some d =>
    have ha := hq d hd
    have ht : turn c.disk i = some (Dasd.stepDisk d).1 := by unfold turn; rw [hd]; rfl
    simp only [hg, Bool.false_eq_true, if_false, Out.bind_ok]
    unfold attention setDisk
    simp only [if_true]
    have : Dasd.checkAttn (Dasd.stepDisk d).1 = false := by unfold Dasd.checkAttn; rw [step_attn, ha]
    rw [this, ht]
    rfl

theorem walkFrom_calm (l : List (BitVec 3)) (hl : l.Nodup) (c : Ctx) (hf : c.FC &&& 0x04#8 = 0#8)
    (hq : Quiet c.disk) :
    walkFrom c l = .ok { c with disk := fun j => if j ∈ l then turn c.disk j else c.disk j } := by
  induction l generalizing c with
  | nil => simp [walkFrom]
  | cons i is ih =>
    obtain ⟨hi, hn⟩ := List.nodup_cons.1 hl
    unfold walkFrom
    rw [walkOne_calm c i hf (hq i), Out.bind_ok]
    rw [ih hn { c with disk := fun j => if j = i then turn c.disk i else c.disk j } hf ?_]
    · congr 1
      have : (fun j => if j ∈ is then turn (fun j => if j = i then turn c.disk i else c.disk j) j
            else if j = i then turn c.disk i else c.disk j)
          = fun j => if j ∈ i :: is then turn c.disk j else c.disk j := by
        funext j
        by_cases hj : j = i
        · subst hj
          simp [hi]
        · by_cases hm : j ∈ is <;> simp [hj, hm, turn]
      rw [this]
    · intro j d hd
      dsimp only at hd
      split at hd
      · exact hq.turn i d hd
      · exact hq j d hd

/-- With no drive reading or writing and none asking for attention, the drives turn and nothing
else happens. -/
theorem walk_calm (c : Ctx) (hf : c.FC &&& 0x04#8 = 0#8) (hq : Quiet c.disk) :
    walk c = .ok { c with SC := 0#8, disk := turn c.disk } := by
  unfold walk
  rw [walkFrom_calm _ (by decide) { c with SC := 0#8 } hf hq]
  congr 1
  congr 1
  funext j
  rcases bv3_cases j with h | h | h | h | h | h | h | h <;> subst h <;> simp

/-- One microinstruction with the drives at rest. -/
theorem step_calm (c : Ctx) (n : Nat) (hn : n < 4096) (hw : c.WX = BitVec.ofNat 16 n) (hf : c.FC &&& 0x04#8 = 0#8)
    (hq : Quiet c.disk) : step ros c = exec (ros n) { c with SC := 0#8, disk := turn c.disk } := by
  unfold step
  rw [walk_calm c hf hq, Out.bind_ok]
  have : ({ c with SC := 0#8, disk := turn c.disk } : Ctx).WX.toNat = n := by
    show c.WX.toNat = n
    rw [hw, BitVec.toNat_ofNat]
    exact Nat.mod_eq_of_lt (by omega)
  rw [this, if_pos hn]

/-! ## Bits -/

theorem bit_mask (i j : Nat) (hi : i < 8) (hj : j < 8) : (0x80#8 >>> i).getLsbD (7 - j) = decide (i = j) := by
  have : ∀ i : Fin 8, ∀ j : Fin 8, (0x80#8 >>> i.val).getLsbD (7 - j.val) = decide (i.val = j.val) := by decide
  exact this ⟨i, hi⟩ ⟨j, hj⟩

theorem bit_setBit (x : B) (i j : Nat) (hi : i < 8) (hj : j < 8) : bit (setBit x i) j = (bit x j || decide (i = j)) := by
  unfold bit setBit
  rw [BitVec.getLsbD_or, bit_mask i j hi hj]

theorem bit_clrBit (x : B) (i j : Nat) (hi : i < 8) (hj : j < 8) :
    bit (clrBit x i) j = (bit x j && !decide (i = j)) := by
  unfold bit clrBit
  rw [BitVec.getLsbD_and, BitVec.getLsbD_not, bit_mask i j hi hj]
  have : (7 - j < 8) = True := by simp; omega
  simp [this]

theorem bit_putBit (x : B) (i j : Nat) (v : Bool) (hi : i < 8) (hj : j < 8) :
    bit (putBit x i v) j = if i = j then v else bit x j := by
  unfold putBit
  split
  · next h =>
    rw [bit_setBit x i j hi hj, h]
    by_cases hij : i = j <;> simp [hij]
  · next h =>
    rw [bit_clrBit x i j hi hj]
    by_cases hij : i = j <;> simp [hij, h]

end Verif.Ctl2844
