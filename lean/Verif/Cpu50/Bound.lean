import Verif.Cpu50.Flow2
import Verif.Cpu50.Words8

/-!
# Model 2050: where the address register is checked

A word which stores, or which looks at a storage key, uses the address register. The register may
hold an address without storage after an instruction fetch beyond the end of storage or after an
addressing interruption. `loose` contains the words which can be reached in this condition.
-/

namespace Verif.Cpu50

/-- Addresses at which the storage address register may hold an address without storage, 256 to
a row. -/
def looseRow (r : Nat) : Nat :=
  match r with
  | 0 => 0xe0000000000000000000000000000000000c00e000404444400
  | 1 => 0xfed3f5ee554e4effffffff0000000000fffff53ff7f37fffff3fff
  | 2 => 0x3ad91111ddddddddd10000000000ffff70ffffffa37fffef00
  | 3 => 0xdffffffffffffffffffeff0000000000ffdfff3bbbbbbbbbb3bbb3
  | 4 => 0xffffacffffffffffffffff0000000000fffff8fffffeeeeeefffee
  | 5 => 0xeffffffffeffffff2fffff0000000000ffffffffffffff7ffffff5
  | 6 => 0xd11111111bdf11111
  | 7 => 0xff20000007f0000000000f0000000000000000d555575555ff5555
  | 8 => 0x7fffffffffffffffffffff0000000000f0001000ff40210ffffffd
  | 9 => 0xcfff5cf00000000800000000000000000010004ee644444444444f
  | 10 => 0x0
  | 11 => 0x0
  | 12 => 0xef00000ef0000000000000000000000000000d70000024220ece00
  | 13 => 0xf000000c70c0000000ff000000000000000000feeffefff0000000
  | 14 => 0xffffffc000101ff00c000000000000000ffebff0040000ef0e200
  | 15 => 0x40000000000000000000000000000000000000000005000
  | _ => 0

/-- Addresses at which the storage address register may hold an address without storage. -/
def loose (n : Nat) : Bool := (looseRow (n / 256)).testBit (n % 256)

/-- Words of `SSK`, `ISK` and of the operator's panel which use a storage key or store before the
address has been checked. -/
def rash (n : Nat) : Bool := [0x180, 0x1c9, 0x1bc, 0x20e, 0x2be, 0x2bf, 0x237].contains n

/-- Words after which a storage reference is pending or the address is off its boundary. -/
def sure (w : Word) : Bool :=
  w.tr == 6 || w.tr == 15 || w.tr == 16 || w.tr == 10 || w.tr == 11 ||
  (w.tr == 8 && (w.ce % 8 == 1 || w.ce % 8 == 2 || w.ce % 8 == 5)) || w.wm == 8

/-- Check of one address. -/
def checkB (n : Nat) : Bool :=
  !every n || needsChan (ros n) ||
    ((rash n || ((!storeTr (ros n) || !loose n) && (ros n).ss != 31 &&
      ((ros n).ss != 30 || (!loose n && (ros n).tr == 0 && (ros n).iv == 0)))) &&
     ((ros n).tr != 8 || sure (ros n)) &&
     (!((ros n).tr == 10 || (ros n).tr == 11) || ((ros n).ss != 5 && (ros n).ss != 6)) &&
     (nexts true (ros n) ++ nexts false (ros n)).all (fun m =>
       ((ros n).tr != 9 && (ros n).iv != 4 && (ros n).iv != 7 || loose m) &&
       (!loose n || sure (ros n) || loose m || (n == 0x327 && m == 0xc3f))))

set_option maxRecDepth 100000 in
theorem checkB_0 : ∀ k < 256, checkB (0 * 256 + k) = true := by
  decide +kernel

set_option maxRecDepth 100000 in
theorem checkB_1 : ∀ k < 256, checkB (1 * 256 + k) = true := by
  decide +kernel

set_option maxRecDepth 100000 in
theorem checkB_2 : ∀ k < 256, checkB (2 * 256 + k) = true := by
  decide +kernel

set_option maxRecDepth 100000 in
theorem checkB_3 : ∀ k < 256, checkB (3 * 256 + k) = true := by
  decide +kernel

set_option maxRecDepth 100000 in
theorem checkB_4 : ∀ k < 256, checkB (4 * 256 + k) = true := by
  decide +kernel

set_option maxRecDepth 100000 in
theorem checkB_5 : ∀ k < 256, checkB (5 * 256 + k) = true := by
  decide +kernel

set_option maxRecDepth 100000 in
theorem checkB_6 : ∀ k < 256, checkB (6 * 256 + k) = true := by
  decide +kernel

set_option maxRecDepth 100000 in
theorem checkB_7 : ∀ k < 256, checkB (7 * 256 + k) = true := by
  decide +kernel

set_option maxRecDepth 100000 in
theorem checkB_8 : ∀ k < 256, checkB (8 * 256 + k) = true := by
  decide +kernel

set_option maxRecDepth 100000 in
theorem checkB_9 : ∀ k < 256, checkB (9 * 256 + k) = true := by
  decide +kernel

set_option maxRecDepth 100000 in
theorem checkB_10 : ∀ k < 256, checkB (10 * 256 + k) = true := by
  decide +kernel

set_option maxRecDepth 100000 in
theorem checkB_11 : ∀ k < 256, checkB (11 * 256 + k) = true := by
  decide +kernel

set_option maxRecDepth 100000 in
theorem checkB_12 : ∀ k < 256, checkB (12 * 256 + k) = true := by
  decide +kernel

set_option maxRecDepth 100000 in
theorem checkB_13 : ∀ k < 256, checkB (13 * 256 + k) = true := by
  decide +kernel

set_option maxRecDepth 100000 in
theorem checkB_14 : ∀ k < 256, checkB (14 * 256 + k) = true := by
  decide +kernel

set_option maxRecDepth 100000 in
theorem checkB_15 : ∀ k < 256, checkB (15 * 256 + k) = true := by
  decide +kernel

theorem checkB_all {n : Nat} (h : n < 4096) : checkB n = true := by
  have key : ∀ r < 16, ∀ k < 256, checkB (r * 256 + k) = true := by
    intro r hr
    have h2 : r = 0 ∨ r = 1 ∨ r = 2 ∨ r = 3 ∨ r = 4 ∨ r = 5 ∨ r = 6 ∨ r = 7 ∨ r = 8 ∨ r = 9 ∨
      r = 10 ∨ r = 11 ∨ r = 12 ∨ r = 13 ∨ r = 14 ∨ r = 15 := by omega
    rcases h2 with rfl | rfl | rfl | rfl | rfl | rfl | rfl | rfl | rfl | rfl | rfl | rfl | rfl |
      rfl | rfl | rfl
    · exact checkB_0
    · exact checkB_1
    · exact checkB_2
    · exact checkB_3
    · exact checkB_4
    · exact checkB_5
    · exact checkB_6
    · exact checkB_7
    · exact checkB_8
    · exact checkB_9
    · exact checkB_10
    · exact checkB_11
    · exact checkB_12
    · exact checkB_13
    · exact checkB_14
    · exact checkB_15
  have h1 := key (n / 256) (by omega) (n % 256) (by omega)
  rwa [show n / 256 * 256 + n % 256 = n by omega] at h1

theorem loose_1c : loose 0x1c0 = true ∧ loose 0x1c2 = true := by decide +kernel

/-- What is known about a word in reach. -/
theorem bound_word {n : Nat} (h : every n = true) (hc : needsChan (ros n) = false) :
    (rash n = false → (storeTr (ros n) = true → loose n = false) ∧ (ros n).ss ≠ 31 ∧
      ((ros n).ss = 30 → loose n = false ∧ (ros n).tr = 0 ∧ (ros n).iv = 0)) ∧
    ((ros n).tr = 8 → sure (ros n) = true) ∧
    ((ros n).tr = 10 ∨ (ros n).tr = 11 → (ros n).ss ≠ 5 ∧ (ros n).ss ≠ 6) ∧
    ∀ p, ∀ m ∈ nexts p (ros n),
      ((ros n).tr = 9 ∨ (ros n).iv = 4 ∨ (ros n).iv = 7 → loose m = true) ∧
      (loose n = true → sure (ros n) = false → loose m = true ∨ n = 0x327 ∧ m = 0xc3f) := by
  have h1 := checkB_all (every_lt h)
  unfold checkB at h1
  rw [h, hc, Bool.not_true, Bool.false_or, Bool.false_or] at h1
  simp only [Bool.and_eq_true, Bool.or_eq_true, Bool.not_eq_true', bne_iff_ne, beq_iff_eq,
    List.all_eq_true, List.mem_append, Bool.or_eq_false_iff, beq_eq_false_iff_ne] at h1
  obtain ⟨⟨⟨h2, h3⟩, h4⟩, h5⟩ := h1
  refine ⟨fun hr => ?_, fun q => ?_, fun q => ?_, fun p m hm => ?_⟩
  · rw [hr] at h2
    rcases h2 with h2 | ⟨⟨h6, h7⟩, h8⟩
    · cases h2
    · refine ⟨fun q => ?_, h7, fun q => ?_⟩
      · rcases h6 with h6 | h6
        · rw [q] at h6; cases h6
        · exact h6
      · rcases h8 with h8 | h8
        · exact absurd q h8
        · exact ⟨h8.1.1, h8.1.2, h8.2⟩
  · rcases h3 with h3 | h3
    · exact absurd q h3
    · exact h3
  · rcases h4 with h4 | h4
    · rcases q with q | q
      · exact absurd q h4.1
      · exact absurd q h4.2
    · exact h4
  · obtain ⟨h6, h7⟩ := h5 m (by cases p; exact .inr hm; exact .inl hm)
    refine ⟨fun q => ?_, fun q1 q2 => ?_⟩
    · rcases h6 with h6 | h6
      · rcases q with q | q | q
        · exact absurd q h6.1.1
        · exact absurd q h6.1.2
        · exact absurd q h6.2
      · exact h6
    · rcases h7 with ((h7 | h7) | h7) | h7
      · rw [q1] at h7; cases h7
      · rw [q2] at h7; cases h7
      · exact .inl h7
      · exact .inr h7

end Verif.Cpu50
