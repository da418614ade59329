import Verif.Ctl2844.Alu
import Verif.Ctl2841.Boot
import Verif.Ctl2841.Bound

/-!
# The adder of the 2841 (C165)

The specification is that of `Verif.Ctl2844.Alu`.
-/

namespace Verif.Ctl2841
open Verif.Ctl2844

/-- What the adder leaves is what the specification says. -/
theorem adds (c : Ctx) (cc : Nat) :
    Adds cc (bit c.ST 3) c.Abus c.Bbus (alu c cc) (carryOut c cc (alu c cc)) := by
  unfold Adds
  split
  · next h => subst h; exact ⟨rfl, rfl⟩
  · split
    · next h => subst h; exact ⟨rfl, rfl⟩
    · split
      · next h => subst h; exact ⟨rfl, rfl⟩
      · next h2 h3 h7 =>
        have e' : alu c cc = c.Abus + c.Bbus + carryIn c cc := by
          unfold alu
          split <;> first | (exact absurd rfl (by assumption)) | rfl
        have e : carryOut c cc (c.Abus + c.Bbus + carryIn c cc) =
            ((c.Abus &&& c.Bbus) ||| ((c.Abus ^^^ c.Bbus) &&& ~~~(c.Abus + c.Bbus + carryIn c cc))).getLsbD 7 := by
          unfold carryOut
          split <;> first | (exact absurd rfl (by assumption)) | rfl
        rw [e', e]
        have hk : ∃ k : Bool, carryIn c cc = (if k then 1#8 else 0#8) ∧ cin cc (bit c.ST 3) = k.toNat := by
          unfold carryIn
          split
          · refine ⟨bit c.ST 3, rfl, ?_⟩
            cases bit c.ST 3 <;> rfl
          · exact ⟨true, rfl, rfl⟩
          · exact ⟨true, rfl, rfl⟩
          · next n6 n1 n5 =>
            refine ⟨false, rfl, ?_⟩
            unfold cin
            rw [if_neg (fun h => h.elim n1 n5), if_neg (fun h => n6 h.1)]
            rfl
        obtain ⟨k, k1, k2⟩ := hk
        rw [k2]
        exact sum_carry _ _ k _ k1

/-! ## The rest of the microinstruction -/

/-- The adder, the buses, the status byte and the count are the same. -/
def Same (c c' : Ctx) : Prop :=
  (c'.Abus = c.Abus ∧ c'.Bbus = c.Bbus ∧ c'.Alu = c.Alu ∧ c'.carry = c.carry ∧ c'.d_nzero = c.d_nzero ∧ c'.ST = c.ST) ∧
    c'.DH = c.DH ∧ c'.DL = c.DL

theorem Same.rfl {c : Ctx} : Same c c := ⟨⟨_root_.rfl, _root_.rfl, _root_.rfl, _root_.rfl, _root_.rfl, _root_.rfl⟩, _root_.rfl, _root_.rfl⟩

theorem Same.trans {a b c : Ctx} (h : Same a b) (k : Same b c) : Same a c :=
  ⟨⟨k.1.1.trans h.1.1, k.1.2.1.trans h.1.2.1, k.1.2.2.1.trans h.1.2.2.1, k.1.2.2.2.1.trans h.1.2.2.2.1,
    k.1.2.2.2.2.1.trans h.1.2.2.2.2.1, k.1.2.2.2.2.2.trans h.1.2.2.2.2.2⟩, k.2.1.trans h.2.1, k.2.2.trans h.2.2⟩

theorem driveTags_same {c c' : Ctx} (h : driveTags c = .ok c') : Same c c' := by
  unfold driveTags at h
  split at h
  · cases h; exact Same.rfl
  · split at h
    · cases h
    · obtain ⟨d, _, h⟩ := bind_some h
      cases h; exact Same.rfl (c := c)

theorem driveUpdate_same {c c' : Ctx} (h : driveUpdate c = .ok c') : Same c c' := by
  unfold driveUpdate at h
  split at h
  · cases h; exact Same.rfl
  · split at h
    · cases h
    · split at h
      · obtain ⟨d, _, h⟩ := bind_some h
        cases h; exact Same.rfl (c := c)
      · cases h; exact Same.rfl

/-- What the destination leaves. -/
def After (w : Word) (c c' : Ctx) : Prop :=
  (c'.Abus = c.Abus ∧ c'.Bbus = c.Bbus ∧ c'.Alu = c.Alu ∧ c'.carry = c.carry ∧ c'.d_nzero = c.d_nzero ∧ c'.ST = c.ST) ∧
    c'.DH = (if w.cd = 7 then c.Alu else c.DH) ∧ c'.DL = (if w.cd = 6 then c.Alu else c.DL)

theorem dest_after {w : Word} {c c' : Ctx} (h : dest c w = .ok c') : After w c c' := by
  unfold dest at h
  unfold After
  split at h <;> rename_i e <;>
    first
    | (cases h; rw [e]; exact ⟨⟨rfl, rfl, rfl, rfl, rfl, rfl⟩, rfl, rfl⟩)
    | (have k := driveTags_same h; rw [e]
       exact ⟨k.1, k.2.1, k.2.2⟩)
    | (obtain ⟨x, h1, h2⟩ := bind_some h; have k := (driveTags_same h1).trans (driveUpdate_same h2); rw [e]
       exact ⟨k.1, k.2.1, k.2.2⟩)
    | skip
  cases h
  exact ⟨⟨rfl, rfl, rfl, rfl, rfl, rfl⟩, by rw [if_neg (by assumption)], by rw [if_neg (by assumption)]⟩

/-- The flags change the status byte and `index`, and status bit 3 only for CS 7 and 8. -/
theorem flags_shape (c : Ctx) (cs : Nat) : ∃ x y, flags c cs = { c with ST := x, index := y } ∧
    (cs ≠ 7 → cs ≠ 8 → bit x 3 = bit c.ST 3) := by
  unfold flags
  split
  all_goals first
    | exact ⟨_, _, rfl, fun h => absurd rfl h⟩
    | exact ⟨_, _, rfl, fun _ h => absurd rfl h⟩
    | exact ⟨_, _, rfl, fun _ _ => by rw [bit_setBit _ _ _ (by decide) (by decide)]; simp⟩
    | exact ⟨_, _, rfl, fun _ _ => by rw [bit_clrBit _ _ _ (by decide) (by decide)]; simp⟩
    | exact ⟨c.ST, c.index, rfl, fun _ _ => rfl⟩
    | skip
  split
  · exact ⟨_, _, rfl, fun _ _ => by rw [bit_setBit _ _ _ (by decide) (by decide)]; simp⟩
  · exact ⟨c.ST, c.index, rfl, fun _ _ => rfl⟩

theorem keepCarry_shape (c : Ctx) (cc : Nat) : ∃ x, keepCarry c cc = { c with ST := x } ∧
    bit x 3 = keptAfter cc (bit c.ST 3) c.carry := by
  unfold keepCarry
  split
  · exact ⟨_, rfl, by rw [bit_putBit _ _ _ _ (by decide) (by decide)]; rfl⟩
  · exact ⟨_, rfl, by rw [bit_putBit _ _ _ _ (by decide) (by decide)]; rfl⟩
  · exact ⟨_, rfl, by rw [bit_putBit _ _ _ _ (by decide) (by decide)]; rfl⟩
  · next n4 n5 n6 =>
    refine ⟨c.ST, rfl, ?_⟩
    unfold keptAfter
    rw [if_neg (fun h => h.elim n4 fun h => h.elim n5 n6)]

/-- What the A bus leaves alone. -/
theorem aBus_same (w : Word) (c : Ctx) :
    (aBus c w).ST = c.ST ∧ (aBus c w).DH = c.DH ∧ (aBus c w).DL = c.DL ∧ (aBus c w).Bbus = c.Bbus ∧
    (w.ca = 6 → (aBus c w).Abus = c.DL) ∧ (w.ca = 7 → (aBus c w).Abus = c.DH) := by
  generalize hx : aBus c w = c'
  unfold aBus at hx
  split at hx <;> rename_i e <;>
    first
    | (cases hx; exact ⟨rfl, rfl, rfl, rfl, fun k => by omega, fun k => by omega⟩)
    | (cases hx; exact ⟨rfl, rfl, rfl, rfl, fun _ => rfl, fun k => by omega⟩)
    | (cases hx; exact ⟨rfl, rfl, rfl, rfl, fun k => by omega, fun _ => rfl⟩)
    | (split at hx <;> (cases hx; exact ⟨rfl, rfl, rfl, rfl, fun k => by omega, fun k => by omega⟩))
    | (cases hx; exact ⟨rfl, rfl, rfl, rfl, fun k => absurd k (by assumption), fun k => absurd k (by assumption)⟩)

/-- **C165**: a microinstruction of the 2841 which ends has added, or combined by AND, OR or
exclusive OR, its two buses with the right carry; the zero test is that of the result; the
adder's output is the result, or the A bus with the bypass; and status bit 3 is the carry out
when the word keeps it. -/
theorem C165_adder {w : Word} {c c' : Ctx} (h : exec w c = .ok c') :
    (∃ s, Adds w.cc (bit c.ST 3) c'.Abus c'.Bbus s c'.carry ∧ c'.d_nzero = decide (s ≠ 0#8) ∧
      c'.Alu = if w.bp ≠ 0 then c'.Abus else s) ∧
    (w.cs ≠ 7 → w.cs ≠ 8 → bit c'.ST 3 = keptAfter w.cc (bit c.ST 3) c'.carry) ∧ c'.Bbus = bBus c w ∧
    (w.ca = 6 → c'.Abus = c.DL) ∧ (w.ca = 7 → c'.Abus = c.DH) ∧
    c'.DH = (if w.cd = 7 then c'.Alu else c.DH) ∧ c'.DL = (if w.cd = 6 then c'.Alu else c.DL) := by
  unfold exec at h
  obtain ⟨c2, h2, h⟩ := bind_some h
  cases h
  have a := aBus_same w { c with Bbus := bBus c w }
  obtain ⟨⟨b1, b2, b3, b4, b5, b6⟩, b7, b8⟩ := dest_after h2
  generalize aBus { c with Bbus := bBus c w } w = c1 at *
  obtain ⟨x, k1, k2⟩ := keepCarry_shape c2 w.cc
  obtain ⟨y, z, f1, f2⟩ := flags_shape (keepCarry c2 w.cc) w.cs
  rw [f1]
  rw [k1] at f2 ⊢
  have eS : c2.Alu = if w.bp ≠ 0 then c1.Abus else alu c1 w.cc := b3
  have eC : c2.carry = carryOut c1 w.cc (alu c1 w.cc) := b4
  have eT : c2.ST = c.ST := b6.trans a.1
  have e1 : c2.Abus = c1.Abus := b1
  have e2 : c2.Bbus = c1.Bbus := b2
  refine ⟨⟨alu c1 w.cc, ?_, ?_, ?_⟩, fun n7 n8 => ?_, ?_, fun e => ?_, fun e => ?_, ?_, ?_⟩
  · show Adds w.cc (bit c.ST 3) c2.Abus c2.Bbus _ c2.carry
    rw [e1, e2, eC]
    have := adds c1 w.cc
    rw [show c1.ST = c.ST from a.1] at this
    exact this
  · exact b5
  · show c2.Alu = if w.bp ≠ 0 then c2.Abus else _
    rw [eS, e1]
  · show bit y 3 = keptAfter w.cc (bit c.ST 3) c2.carry
    rw [f2 n7 n8]
    show bit x 3 = _
    rw [k2, eT]
  · show c2.Bbus = _
    rw [e2]; exact a.2.2.2.1
  · show c2.Abus = _
    rw [e1]; exact a.2.2.2.2.1 e
  · show c2.Abus = _
    rw [e1]; exact a.2.2.2.2.2 e
  · show c2.DH = if w.cd = 7 then c2.Alu else c.DH
    rw [b7, b3]
    split
    · rfl
    · exact a.2.1
  · show c2.DL = if w.cd = 6 then c2.Alu else c.DL
    rw [b8, b3]
    split
    · rfl
    · exact a.2.2.1

/-! ## The drives between two microinstructions -/

/-- The count and the kept carry are the same. -/
def CountKept (c c' : Ctx) : Prop := c'.DH = c.DH ∧ c'.DL = c.DL ∧ bit c'.ST 3 = bit c.ST 3

theorem transfer_holds (c : Ctx) (i : BitVec 3) (r : Bool) (x : Dasd.S × Bool × Dasd.Io) : CountKept c (transfer c i r x) := by
  have t : bit (setBit c.ST 4) 3 = bit c.ST 3 := by rw [bit_setBit _ _ _ (by decide) (by decide)]; simp
  refine ⟨rfl, rfl, ?_⟩
  show bit (if x.2.1 = true then setBit c.ST 4 else c.ST) 3 = _
  split
  · exact t
  · rfl

theorem selDrive_holds {c c' : Ctx} {i : BitVec 3} {d : Dasd.S} (h : selDrive c i d = .ok c') : CountKept c c' := by
  unfold selDrive at h
  split at h
  · obtain ⟨a, _, h⟩ := bind_some h
    cases h
    exact transfer_holds _ _ _ _
  · split at h
    · obtain ⟨a, _, h⟩ := bind_some h
      cases h
      exact transfer_holds _ _ _ _
    · cases h
      exact ⟨rfl, rfl, rfl⟩

theorem attention_holds (c : Ctx) (i : BitVec 3) : CountKept c (attention c i) := by
  unfold attention
  split
  · exact ⟨rfl, rfl, rfl⟩
  · split <;> exact ⟨rfl, rfl, rfl⟩

theorem CountKept.trans {a b c : Ctx} (h : CountKept a b) (k : CountKept b c) : CountKept a c :=
  ⟨k.1.trans h.1, k.2.1.trans h.2.1, k.2.2.trans h.2.2⟩

theorem walkOne_holds {c c' : Ctx} {i : BitVec 3} (h : walkOne c i = .ok c') : CountKept c c' := by
  unfold walkOne at h
  split at h
  · cases h; exact ⟨rfl, rfl, rfl⟩
  · obtain ⟨c1, h1, h2⟩ := bind_some h
    cases h2
    refine CountKept.trans ?_ (attention_holds _ _)
    split at h1
    · exact selDrive_holds h1
    · cases h1; exact ⟨rfl, rfl, rfl⟩

theorem walkFrom_holds {l : List (BitVec 3)} {c c' : Ctx} (h : walkFrom c l = .ok c') : CountKept c c' := by
  induction l generalizing c with
  | nil => cases h; exact ⟨rfl, rfl, rfl⟩
  | cons i l ih =>
    obtain ⟨c1, h1, h2⟩ := bind_some h
    exact (walkOne_holds h1).trans (ih h2)

theorem step_exec {ros : Nat → Word} {c c' : Ctx} (h : step ros c = .ok c') :
    ∃ d, CountKept c d ∧ exec (ros c.WX.toNat) d = .ok c' := by
  unfold step at h
  obtain ⟨d, h1, h2⟩ := bind_some h
  split at h2
  · refine ⟨d, walkFrom_holds (c := { c with SC := 0#8 }) h1, ?_⟩
    have e : d.WX = c.WX := by
      have g := good_walk c
      rw [h1] at g
      exact g.1
    rw [← e]
    exact h2
  · cases h2

/-- **C165**: two steps of the 2841, whatever the drives do meanwhile, of which the first adds
to the low byte of the count and keeps the carry and the second adds to the high byte with the
carry kept, add to the count as one number. -/
theorem C165_count {ros : Nat → Word} {c c1 c2 : Ctx} (h1 : step ros c = .ok c1) (h2 : step ros c1 = .ok c2)
    (l1 : (ros c.WX.toNat).ca = 6 ∧ (ros c.WX.toNat).cd = 6) (l2 : (ros c.WX.toNat).cc = 4 ∨ (ros c.WX.toNat).cc = 5)
    (l3 : (ros c.WX.toNat).cs ≠ 7 ∧ (ros c.WX.toNat).cs ≠ 8)
    (r1 : (ros c1.WX.toNat).ca = 7 ∧ (ros c1.WX.toNat).cd = 7 ∧ (ros c1.WX.toNat).cc = 6)
    (np : (ros c.WX.toNat).bp = 0 ∧ (ros c1.WX.toNat).bp = 0) :
    65536 * c2.carry.toNat + count c2.DH c2.DL =
      count c.DH c.DL + count c2.Bbus c1.Bbus + (if (ros c.WX.toNat).cc = 5 then 1 else 0) := by
  obtain ⟨d, ⟨hd1, hd2, _⟩, e1⟩ := step_exec h1
  obtain ⟨d', ⟨hd1', hd2', hs'⟩, e2⟩ := step_exec h2
  obtain ⟨⟨s, a1, _, a2⟩, a3, _, a5, _, a7, a8⟩ := C165_adder e1
  obtain ⟨⟨s', b1, _, b2⟩, _, _, _, b6, b7, b8⟩ := C165_adder e2
  rw [if_neg (fun h => h np.1)] at a2
  rw [if_neg (fun h => h np.2)] at b2
  rw [← a2] at a1
  rw [← b2] at b1
  rw [l1.2] at a7 a8
  rw [r1.2.1] at b7 b8
  rw [if_neg (by decide)] at a7 b8
  rw [if_pos rfl] at a8 b7
  have k := a3 l3.1 l3.2
  have s1 : 256 * c1.carry.toNat + c1.DL.toNat = c.DL.toNat + c1.Bbus.toNat + (if (ros c.WX.toNat).cc = 5 then 1 else 0) := by
    rw [a8, ← hd2, ← a5 l1.1]
    rcases l2 with e | e <;> rw [e] at a1 ⊢ <;> exact a1
  have s2 : 256 * c2.carry.toNat + c2.DH.toNat = c.DH.toNat + c2.Bbus.toNat + c1.carry.toNat := by
    have kk : bit d'.ST 3 = c1.carry := by
      rw [hs', k]
      rcases l2 with e | e <;> rw [e] <;> rfl
    rw [b7, ← hd1, ← a7, ← hd1', ← b6 r1.1]
    rw [r1.2.2, kk] at b1
    have b1' : 256 * c2.carry.toNat + c2.Alu.toNat = c2.Abus.toNat + c2.Bbus.toNat + cin 6 c1.carry := b1
    rw [b1']
    cases c1.carry <;> rfl
  unfold count
  rw [show c2.DL = c1.DL from b8.trans hd2']
  omega

/-- Two words which add 300 to a count of 500. -/
example : ∃ c1 c2, step (fun n => if n = 0 then ⟨6, 2, 44, 0, 0, 4, 6, 0, 4, 0, 0⟩ else ⟨7, 2, 1, 0, 0, 0, 7, 0, 6, 0, 0⟩)
      { init 0x90#16 with DH := 1#8, DL := 244#8 } = .ok c1 ∧
    step (fun n => if n = 0 then ⟨6, 2, 44, 0, 0, 4, 6, 0, 4, 0, 0⟩ else ⟨7, 2, 1, 0, 0, 0, 7, 0, 6, 0, 0⟩) c1 = .ok c2 ∧
    c1.WX = 4#16 ∧ count c2.DH c2.DL = 800 := ⟨_, _, rfl, rfl, rfl, rfl⟩

end Verif.Ctl2841
