import Verif.Ctl2844.Boot
import Verif.Ctl2844.Bound

/-!
# The adder of the 2844 (C165)

The specification is about whole numbers: what a byte adder with carry has to give, and what
two of its steps have to give on a count of two bytes.
-/

namespace Verif.Ctl2844

/-! ## Specification -/

/-- The carry the adder starts with: none, one (CC 1 and 5), or the one kept in status bit 3
(CC 6). -/
def cin (cc : Nat) (kept : Bool) : Nat :=
  if cc = 1 ∨ cc = 5 then 1 else if cc = 6 ∧ kept = true then 1 else 0

/-- Sum and carry out of the bytes on the two buses for each value of CC: AND, OR and exclusive
OR without a carry, else a sum of nine bits. -/
def Adds (cc : Nat) (kept : Bool) (a b s : B) (carry : Bool) : Prop :=
  if cc = 2 then s = a &&& b ∧ carry = false
  else if cc = 3 then s = a ||| b ∧ carry = false
  else if cc = 7 then s = a ^^^ b ∧ carry = false
  else 256 * carry.toNat + s.toNat = a.toNat + b.toNat + cin cc kept

/-- Status bit 3 after the microinstruction: the carry out for CC 4, 5 and 6. -/
def keptAfter (cc : Nat) (kept carry : Bool) : Bool := if cc = 4 ∨ cc = 5 ∨ cc = 6 then carry else kept

/-- A count of two bytes. -/
def count (h l : B) : Nat := 256 * h.toNat + l.toNat

/-! ## Bytes -/

theorem high_bit (x : B) : x.getLsbD 7 = decide (128 ≤ x.toNat) := by
  have h := BitVec.msb_eq_decide x
  rw [BitVec.msb_eq_getLsbD_last] at h
  simpa using h

theorem sum_carry (a b : B) (k : Bool) (z : B) (hz : z = if k then 1#8 else 0#8) :
    256 * (((a &&& b) ||| ((a ^^^ b) &&& ~~~(a + b + z))).getLsbD 7).toNat + (a + b + z).toNat = a.toNat + b.toNat + k.toNat := by
  have ha := a.isLt
  have hb := b.isLt
  have hs : (a + b + z).toNat = (a.toNat + b.toNat + k.toNat) % 256 := by
    subst hz
    cases k <;> simp [BitVec.toNat_add]
  have hk : k.toNat ≤ 1 := Bool.toNat_le k
  generalize a + b + z = s at hs ⊢
  simp only [BitVec.getLsbD_or, BitVec.getLsbD_and, BitVec.getLsbD_xor, BitVec.getLsbD_not]
  simp only [high_bit]
  cases h1 : decide (128 ≤ a.toNat) <;> cases h2 : decide (128 ≤ b.toNat) <;> cases h3 : decide (128 ≤ s.toNat) <;>
    simp only [decide_eq_true_eq, decide_eq_false_iff_not] at h1 h2 h3 <;>
    first
    | (show 256 * 0 + s.toNat = _; omega)
    | (show 256 * 1 + s.toNat = _; omega)

/-- What the adder leaves is what the specification says. -/
theorem adds (c : Ctx) (cc : Nat) :
    Adds cc (bit c.ST 3) c.Abus c.Bbus (alu c cc) (carryOut c cc (alu c cc)) := by
  unfold Adds
  split
  · next h => subst h; exact ⟨rfl, rfl⟩
  · split
    · next h => subst h; exact ⟨rfl, rfl⟩
    · split
      · next h => subst h; exact ⟨rfl, rfl⟩
      · next h2 h3 h7 =>
        have e' : alu c cc = c.Abus + c.Bbus + carryIn c cc := by
          unfold alu
          split <;> first | (exact absurd rfl (by assumption)) | rfl
        have e : carryOut c cc (c.Abus + c.Bbus + carryIn c cc) =
            ((c.Abus &&& c.Bbus) ||| ((c.Abus ^^^ c.Bbus) &&& ~~~(c.Abus + c.Bbus + carryIn c cc))).getLsbD 7 := by
          unfold carryOut
          split <;> first | (exact absurd rfl (by assumption)) | rfl
        rw [e', e]
        have hk : ∃ k : Bool, carryIn c cc = (if k then 1#8 else 0#8) ∧ cin cc (bit c.ST 3) = k.toNat := by
          unfold carryIn
          split
          · refine ⟨bit c.ST 3, rfl, ?_⟩
            cases bit c.ST 3 <;> rfl
          · exact ⟨true, rfl, rfl⟩
          · exact ⟨true, rfl, rfl⟩
          · next n6 n1 n5 =>
            refine ⟨false, rfl, ?_⟩
            unfold cin
            rw [if_neg (fun h => h.elim n1 n5), if_neg (fun h => n6 h.1)]
            rfl
        obtain ⟨k, k1, k2⟩ := hk
        rw [k2]
        exact sum_carry _ _ k _ k1

/-! ## The rest of the microinstruction -/

/-- The adder, the buses and the status byte are the same. -/
def Same (c c' : Ctx) : Prop :=
  c'.Abus = c.Abus ∧ c'.Bbus = c.Bbus ∧ c'.Alu = c.Alu ∧ c'.carry = c.carry ∧ c'.d_nzero = c.d_nzero ∧ c'.ST = c.ST ∧
    c'.BY = c.BY

theorem driveTags_same {c c' : Ctx} (h : driveTags c = .ok c') : Same c c' ∧ c'.DH = c.DH ∧ c'.DL = c.DL := by
  unfold driveTags at h
  split at h
  · split at h
    · cases h
    · cases h; exact ⟨⟨rfl, rfl, rfl, rfl, rfl, rfl, rfl⟩, rfl, rfl⟩
  · obtain ⟨d, _, h⟩ := bind_some h
    cases h; exact ⟨⟨rfl, rfl, rfl, rfl, rfl, rfl, rfl⟩, rfl, rfl⟩

/-- What the destination leaves. -/
def After (w : Word) (c c' : Ctx) : Prop :=
  (c'.Abus = c.Abus ∧ c'.Bbus = c.Bbus ∧ c'.Alu = c.Alu ∧ c'.carry = c.carry ∧ c'.d_nzero = c.d_nzero ∧ c'.ST = c.ST) ∧
    c'.DH = (if w.cd = 7 then c.Alu else c.DH) ∧ c'.DL = (if w.cd = 6 then c.Alu else c.DL)

theorem dest_after {w : Word} {c c' : Ctx} (h : dest c w = .ok c') : After w c c' := by
  unfold dest at h
  unfold After
  split at h <;> rename_i e <;>
    first
    | (cases h; rw [e]; exact ⟨⟨rfl, rfl, rfl, rfl, rfl, rfl⟩, rfl, rfl⟩)
    | (have k := driveTags_same h; rw [e]
       exact ⟨⟨k.1.1, k.1.2.1, k.1.2.2.1, k.1.2.2.2.1, k.1.2.2.2.2.1, k.1.2.2.2.2.2.1⟩, k.2.1, k.2.2⟩)
    | skip
  cases h
  exact ⟨⟨rfl, rfl, rfl, rfl, rfl, rfl⟩, by rw [if_neg (by assumption)], by rw [if_neg (by assumption)]⟩

/-- The flags change the status byte and `index`, and status bit 3 only for CS 10 and 11. -/
theorem flags_shape (c : Ctx) (cs : Nat) : ∃ x y, flags c cs = { c with ST := x, index := y } ∧
    (cs ≠ 10 → cs ≠ 11 → bit x 3 = bit c.ST 3) := by
  unfold flags
  split
  all_goals first
    | exact ⟨_, _, rfl, fun h => absurd rfl h⟩
    | exact ⟨_, _, rfl, fun _ h => absurd rfl h⟩
    | exact ⟨_, _, rfl, fun _ _ => by rw [bit_setBit _ _ _ (by decide) (by decide)]; simp⟩
    | exact ⟨_, _, rfl, fun _ _ => by rw [bit_clrBit _ _ _ (by decide) (by decide)]; simp⟩
    | exact ⟨c.ST, c.index, rfl, fun _ _ => rfl⟩
    | skip
  split
  · exact ⟨_, _, rfl, fun _ _ => by rw [bit_setBit _ _ _ (by decide) (by decide)]; simp⟩
  · exact ⟨c.ST, c.index, rfl, fun _ _ => rfl⟩

theorem keepCarry_shape (c : Ctx) (cc : Nat) : ∃ x, keepCarry c cc = { c with ST := x } ∧
    bit x 3 = keptAfter cc (bit c.ST 3) c.carry := by
  unfold keepCarry
  split
  · exact ⟨_, rfl, by rw [bit_putBit _ _ _ _ (by decide) (by decide)]; rfl⟩
  · exact ⟨_, rfl, by rw [bit_putBit _ _ _ _ (by decide) (by decide)]; rfl⟩
  · exact ⟨_, rfl, by rw [bit_putBit _ _ _ _ (by decide) (by decide)]; rfl⟩
  · next n4 n5 n6 =>
    refine ⟨c.ST, rfl, ?_⟩
    unfold keptAfter
    rw [if_neg (fun h => h.elim n4 fun h => h.elim n5 n6)]

/-- What the A bus leaves alone. -/
theorem aBus_same {w : Word} {c c' : Ctx} (h : aBus c w = .ok c') :
    c'.ST = c.ST ∧ c'.DH = c.DH ∧ c'.DL = c.DL ∧ c'.Bbus = c.Bbus ∧
    (w.ca = 6 → c'.Abus = c.DL) ∧ (w.ca = 7 → c'.Abus = c.DH) := by
  unfold aBus at h
  split at h <;> rename_i e <;>
    first
    | (cases h; exact ⟨rfl, rfl, rfl, rfl, fun k => by omega, fun k => by omega⟩)
    | (cases h; exact ⟨rfl, rfl, rfl, rfl, fun _ => rfl, fun k => by omega⟩)
    | (cases h; exact ⟨rfl, rfl, rfl, rfl, fun k => by omega, fun _ => rfl⟩)
    | (split at h
       · cases h
       · cases h; exact ⟨rfl, rfl, rfl, rfl, fun k => by omega, fun k => by omega⟩)
    | (cases h; exact ⟨rfl, rfl, rfl, rfl, fun k => absurd k (by assumption), fun k => absurd k (by assumption)⟩)

/-- **C165**: a microinstruction of the 2844 which ends has put the sum, or the AND, OR or
exclusive OR, of its two buses on the adder's output with the right carry; the zero test is that
of this output; and status bit 3 is the carry out when the word keeps it. -/
theorem C165_adder {w : Word} {c c' : Ctx} (h : exec w c = .ok c') :
    Adds w.cc (bit c.ST 3) c'.Abus c'.Bbus c'.Alu c'.carry ∧ c'.d_nzero = decide (c'.Alu ≠ 0#8) ∧
    (w.cs ≠ 10 → w.cs ≠ 11 → bit c'.ST 3 = keptAfter w.cc (bit c.ST 3) c'.carry) ∧ c'.Bbus = bBus c w ∧
    (w.ca = 6 → c'.Abus = c.DL) ∧ (w.ca = 7 → c'.Abus = c.DH) ∧
    c'.DH = (if w.cd = 7 then c'.Alu else c.DH) ∧ c'.DL = (if w.cd = 6 then c'.Alu else c.DL) := by
  unfold exec at h
  obtain ⟨c1, h1, h⟩ := bind_some h
  obtain ⟨c2, h2, h⟩ := bind_some h
  cases h
  have a := aBus_same h1
  obtain ⟨⟨b1, b2, b3, b4, b5, b6⟩, b7, b8⟩ := dest_after h2
  obtain ⟨x, k1, k2⟩ := keepCarry_shape c2 w.cc
  obtain ⟨y, z, f1, f2⟩ := flags_shape (keepCarry c2 w.cc) w.cs
  rw [f1]
  rw [k1] at f2 ⊢
  have eS : c2.Alu = alu c1 w.cc := b3
  have eC : c2.carry = carryOut c1 w.cc (alu c1 w.cc) := b4
  have eT : c2.ST = c.ST := b6.trans a.1
  refine ⟨?_, ?_, fun n10 n11 => ?_, ?_, fun e => ?_, fun e => ?_, ?_, ?_⟩
  · show Adds w.cc (bit c.ST 3) c2.Abus c2.Bbus c2.Alu c2.carry
    rw [b1, b2, eS, eC]
    have := adds c1 w.cc
    rw [show c1.ST = c.ST from a.1] at this
    exact this
  · show c2.d_nzero = decide (c2.Alu ≠ 0#8)
    rw [eS]; exact b5
  · show bit y 3 = keptAfter w.cc (bit c.ST 3) c2.carry
    rw [f2 n10 n11]
    show bit x 3 = _
    rw [k2, eT]
  · show c2.Bbus = _
    rw [b2]; exact a.2.2.2.1
  · show c2.Abus = _
    rw [b1]; exact a.2.2.2.2.1 e
  · show c2.Abus = _
    rw [b1]; exact a.2.2.2.2.2 e
  · show c2.DH = if w.cd = 7 then c2.Alu else c.DH
    rw [b7, eS]
    split
    · rfl
    · exact a.2.1
  · show c2.DL = if w.cd = 6 then c2.Alu else c.DL
    rw [b8, eS]
    split
    · rfl
    · exact a.2.2.1

/-! ## The drives between two microinstructions -/

/-- The count and the kept carry are the same. -/
def CountKept (c c' : Ctx) : Prop := c'.DH = c.DH ∧ c'.DL = c.DL ∧ bit c'.ST 3 = bit c.ST 3

theorem burst_holds (c : Ctx) (am : Bool) (x : B) : CountKept c (burst c am x) := by
  unfold burst
  split
  · split <;> exact ⟨rfl, rfl, rfl⟩
  · exact ⟨rfl, rfl, rfl⟩

theorem transfer_holds (c : Ctx) (i : BitVec 3) (r : Bool) (x : Dasd.S × Bool × Dasd.Io) : CountKept c (transfer c i r x) := by
  obtain ⟨d, b, io⟩ := x
  have t : bit (setBit c.ST 4) 3 = bit c.ST 3 := by rw [bit_setBit _ _ _ (by decide) (by decide)]; simp
  unfold transfer
  dsimp only
  split <;> split
  all_goals first
    | exact ⟨rfl, rfl, rfl⟩
    | exact ⟨(burst_holds _ _ _).1, (burst_holds _ _ _).2.1, (burst_holds _ _ _).2.2.trans t⟩

theorem selDrive_holds {c c' : Ctx} {i : BitVec 3} {d : Dasd.S} (h : selDrive c i d = .ok c') : CountKept c c' := by
  unfold selDrive at h
  split at h
  · obtain ⟨a, _, h⟩ := bind_some h
    cases h
    exact transfer_holds _ _ _ _
  · split at h
    · obtain ⟨a, _, h⟩ := bind_some h
      cases h
      exact transfer_holds _ _ _ _
    · cases h
      split <;> exact ⟨rfl, rfl, rfl⟩

theorem attention_holds (c : Ctx) (i : BitVec 3) : CountKept c (attention c i) := by
  unfold attention
  split
  · exact ⟨rfl, rfl, rfl⟩
  · split <;> exact ⟨rfl, rfl, rfl⟩

theorem CountKept.trans {a b c : Ctx} (h : CountKept a b) (k : CountKept b c) : CountKept a c :=
  ⟨k.1.trans h.1, k.2.1.trans h.2.1, k.2.2.trans h.2.2⟩

theorem walkOne_holds {c c' : Ctx} {i : BitVec 3} (h : walkOne c i = .ok c') : CountKept c c' := by
  unfold walkOne at h
  split at h
  · cases h; exact ⟨rfl, rfl, rfl⟩
  · obtain ⟨c1, h1, h2⟩ := bind_some h
    cases h2
    refine CountKept.trans ?_ (attention_holds _ _)
    split at h1
    · exact selDrive_holds h1
    · cases h1; exact ⟨rfl, rfl, rfl⟩

theorem walkFrom_holds {l : List (BitVec 3)} {c c' : Ctx} (h : walkFrom c l = .ok c') : CountKept c c' := by
  induction l generalizing c with
  | nil => cases h; exact ⟨rfl, rfl, rfl⟩
  | cons i l ih =>
    obtain ⟨c1, h1, h2⟩ := bind_some h
    exact (walkOne_holds h1).trans (ih h2)

theorem step_exec {ros : Nat → Word} {c c' : Ctx} (h : step ros c = .ok c') :
    ∃ d, CountKept c d ∧ exec (ros c.WX.toNat) d = .ok c' := by
  unfold step at h
  obtain ⟨d, h1, h2⟩ := bind_some h
  split at h2
  · refine ⟨d, walkFrom_holds (c := { c with SC := 0#8 }) h1, ?_⟩
    have e : d.WX = c.WX := walkFrom_WX (c := { c with SC := 0#8 }) h1
    rw [← e]
    exact h2
  · cases h2

/-- **C165**: two steps of the 2844, whatever the drives do meanwhile, of which the first adds
to the low byte of the count and keeps the carry and the second adds to the high byte with the
carry kept, add to the count as one number. -/
theorem C165_count {ros : Nat → Word} {c c1 c2 : Ctx} (h1 : step ros c = .ok c1) (h2 : step ros c1 = .ok c2)
    (l1 : (ros c.WX.toNat).ca = 6 ∧ (ros c.WX.toNat).cd = 6) (l2 : (ros c.WX.toNat).cc = 4 ∨ (ros c.WX.toNat).cc = 5)
    (l3 : (ros c.WX.toNat).cs ≠ 10 ∧ (ros c.WX.toNat).cs ≠ 11)
    (r1 : (ros c1.WX.toNat).ca = 7 ∧ (ros c1.WX.toNat).cd = 7 ∧ (ros c1.WX.toNat).cc = 6) :
    65536 * c2.carry.toNat + count c2.DH c2.DL =
      count c.DH c.DL + count c2.Bbus c1.Bbus + (if (ros c.WX.toNat).cc = 5 then 1 else 0) := by
  obtain ⟨d, ⟨hd1, hd2, _⟩, e1⟩ := step_exec h1
  obtain ⟨d', ⟨hd1', hd2', hs'⟩, e2⟩ := step_exec h2
  obtain ⟨a1, _, a3, _, a5, _, a7, a8⟩ := C165_adder e1
  obtain ⟨b1, _, _, _, _, b6, b7, b8⟩ := C165_adder e2
  rw [l1.2] at a7 a8
  rw [r1.2.1] at b7 b8
  rw [if_neg (by decide)] at a7 b8
  rw [if_pos rfl] at a8 b7
  have k := a3 l3.1 l3.2
  have s1 : 256 * c1.carry.toNat + c1.DL.toNat = c.DL.toNat + c1.Bbus.toNat + (if (ros c.WX.toNat).cc = 5 then 1 else 0) := by
    rw [a8, ← hd2, ← a5 l1.1]
    rcases l2 with e | e <;> rw [e] at a1 ⊢ <;> exact a1
  have s2 : 256 * c2.carry.toNat + c2.DH.toNat = c.DH.toNat + c2.Bbus.toNat + c1.carry.toNat := by
    have kk : bit d'.ST 3 = c1.carry := by
      rw [hs', k]
      rcases l2 with e | e <;> rw [e] <;> rfl
    rw [b7, ← hd1, ← a7, ← hd1', ← b6 r1.1]
    rw [r1.2.2, kk] at b1
    have b1' : 256 * c2.carry.toNat + c2.Alu.toNat = c2.Abus.toNat + c2.Bbus.toNat + cin 6 c1.carry := b1
    rw [b1']
    cases c1.carry <;> rfl
  unfold count
  rw [show c2.DL = c1.DL from b8.trans hd2']
  omega

/-- Two words which add 300 to a count of 500. -/
example : ∃ c1 c2, step (fun n => if n = 0 then ⟨6, 2, 44, 0, 0, 4, 6, 0, 4, 0, 0⟩ else ⟨7, 2, 1, 0, 0, 0, 7, 0, 6, 0, 0⟩)
      { init 0x90#16 with DH := 1#8, DL := 244#8 } = .ok c1 ∧
    step (fun n => if n = 0 then ⟨6, 2, 44, 0, 0, 4, 6, 0, 4, 0, 0⟩ else ⟨7, 2, 1, 0, 0, 0, 7, 0, 6, 0, 0⟩) c1 = .ok c2 ∧
    c1.WX = 4#16 ∧ count c2.DH c2.DL = 800 := ⟨_, _, rfl, rfl, rfl, rfl⟩

end Verif.Ctl2844
