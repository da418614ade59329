import Verif.Cpu50.Guard

/-!
# Model 2050: the checks of the control storage

Every word of the control storage is looked at; the checks are evaluated by the kernel.
-/

namespace Verif.Cpu50

/-- Check of one address of the problem state. -/
def checkP (n : Nat) : Bool :=
  !prob n || gate n || (!sensitive (ros n) && (nexts true (ros n)).all prob)

/-- A word which stores neither changes the address nor the storage key at the same time, and no
word asks for a store of its own. -/
def wordOk (w : Word) : Bool :=
  (!storeTr w || (w.iv != 4 && w.iv != 7 && w.ss != 31)) &&
  (w.tr != 8 || (w.ce % 8 != 0 && w.ce % 8 != 4))

/-- Check of one address, any state. -/
def checkA (n : Nat) : Bool :=
  !every n || (ros n != decodeWord 0 && (needsChan (ros n) ||
    (wordOk (ros n) && (nexts true (ros n) ++ nexts false (ros n)).all (fun m =>
      every m && (!iniW (ros n) || !careful (ros m))))))

/-- Every address of the first set is one of the second. -/
def checkS (n : Nat) : Bool := !prob n || every n

set_option maxRecDepth 100000 in
theorem check_0 : ∀ k < 256, (checkP (0 * 256 + k) && checkA (0 * 256 + k) && checkS (0 * 256 + k)) = true := by
  decide +kernel

set_option maxRecDepth 100000 in
theorem check_1 : ∀ k < 256, (checkP (1 * 256 + k) && checkA (1 * 256 + k) && checkS (1 * 256 + k)) = true := by
  decide +kernel

set_option maxRecDepth 100000 in
theorem check_2 : ∀ k < 256, (checkP (2 * 256 + k) && checkA (2 * 256 + k) && checkS (2 * 256 + k)) = true := by
  decide +kernel

set_option maxRecDepth 100000 in
theorem check_3 : ∀ k < 256, (checkP (3 * 256 + k) && checkA (3 * 256 + k) && checkS (3 * 256 + k)) = true := by
  decide +kernel

set_option maxRecDepth 100000 in
theorem check_4 : ∀ k < 256, (checkP (4 * 256 + k) && checkA (4 * 256 + k) && checkS (4 * 256 + k)) = true := by
  decide +kernel

set_option maxRecDepth 100000 in
theorem check_5 : ∀ k < 256, (checkP (5 * 256 + k) && checkA (5 * 256 + k) && checkS (5 * 256 + k)) = true := by
  decide +kernel

set_option maxRecDepth 100000 in
theorem check_6 : ∀ k < 256, (checkP (6 * 256 + k) && checkA (6 * 256 + k) && checkS (6 * 256 + k)) = true := by
  decide +kernel

set_option maxRecDepth 100000 in
theorem check_7 : ∀ k < 256, (checkP (7 * 256 + k) && checkA (7 * 256 + k) && checkS (7 * 256 + k)) = true := by
  decide +kernel

set_option maxRecDepth 100000 in
theorem check_8 : ∀ k < 256, (checkP (8 * 256 + k) && checkA (8 * 256 + k) && checkS (8 * 256 + k)) = true := by
  decide +kernel

set_option maxRecDepth 100000 in
theorem check_9 : ∀ k < 256, (checkP (9 * 256 + k) && checkA (9 * 256 + k) && checkS (9 * 256 + k)) = true := by
  decide +kernel

set_option maxRecDepth 100000 in
theorem check_10 : ∀ k < 256, (checkP (10 * 256 + k) && checkA (10 * 256 + k) && checkS (10 * 256 + k)) = true := by
  decide +kernel

set_option maxRecDepth 100000 in
theorem check_11 : ∀ k < 256, (checkP (11 * 256 + k) && checkA (11 * 256 + k) && checkS (11 * 256 + k)) = true := by
  decide +kernel

set_option maxRecDepth 100000 in
theorem check_12 : ∀ k < 256, (checkP (12 * 256 + k) && checkA (12 * 256 + k) && checkS (12 * 256 + k)) = true := by
  decide +kernel

set_option maxRecDepth 100000 in
theorem check_13 : ∀ k < 256, (checkP (13 * 256 + k) && checkA (13 * 256 + k) && checkS (13 * 256 + k)) = true := by
  decide +kernel

set_option maxRecDepth 100000 in
theorem check_14 : ∀ k < 256, (checkP (14 * 256 + k) && checkA (14 * 256 + k) && checkS (14 * 256 + k)) = true := by
  decide +kernel

set_option maxRecDepth 100000 in
theorem check_15 : ∀ k < 256, (checkP (15 * 256 + k) && checkA (15 * 256 + k) && checkS (15 * 256 + k)) = true := by
  decide +kernel

theorem check_all {n : Nat} (h : n < 4096) : checkP n = true ∧ checkA n = true ∧ checkS n = true := by
  have key : ∀ r < 16, ∀ k < 256,
      (checkP (r * 256 + k) && checkA (r * 256 + k) && checkS (r * 256 + k)) = true := by
    intro r hr k hk
    match r, hr with
    | 0, _ => exact check_0 k hk
    | 1, _ => exact check_1 k hk
    | 2, _ => exact check_2 k hk
    | 3, _ => exact check_3 k hk
    | 4, _ => exact check_4 k hk
    | 5, _ => exact check_5 k hk
    | 6, _ => exact check_6 k hk
    | 7, _ => exact check_7 k hk
    | 8, _ => exact check_8 k hk
    | 9, _ => exact check_9 k hk
    | 10, _ => exact check_10 k hk
    | 11, _ => exact check_11 k hk
    | 12, _ => exact check_12 k hk
    | 13, _ => exact check_13 k hk
    | 14, _ => exact check_14 k hk
    | 15, _ => exact check_15 k hk
    | r + 16, hr => omega
  have h1 := key (n / 256) (by omega) (n % 256) (by omega)
  rw [show n / 256 * 256 + n % 256 = n by omega, Bool.and_eq_true, Bool.and_eq_true] at h1
  exact ⟨h1.1.1, h1.1.2, h1.2⟩

theorem every_lt {n : Nat} (h : every n = true) : n < 4096 := by
  unfold every at h
  rcases Nat.lt_or_ge n 4096 with h1 | h1
  · exact h1
  · have h2 : allRow (n / 256) = 0 := by
      unfold allRow
      split <;> first | rfl | omega
    rw [h2, Nat.zero_testBit] at h; cases h

theorem prob_lt {n : Nat} (h : prob n = true) : n < 4096 := by
  unfold prob at h
  rcases Nat.lt_or_ge n 4096 with h1 | h1
  · exact h1
  · have h2 : probRow (n / 256) = 0 := by
      unfold probRow
      split <;> first | rfl | omega
    rw [h2, Nat.zero_testBit] at h; cases h

theorem prob_every {n : Nat} (h : prob n = true) : every n = true := by
  have h1 := (check_all (prob_lt h)).2.2
  unfold checkS at h1
  rw [h] at h1; exact h1

/-- What is known about a word in reach. -/
theorem every_word {n : Nat} (h : every n = true) : ros n ≠ decodeWord 0 ∧
    (needsChan (ros n) = false → wordOk (ros n) = true ∧ ∀ p, ∀ m ∈ nexts p (ros n),
      every m = true ∧ (iniW (ros n) = true → careful (ros m) = false)) := by
  have h1 := (check_all (every_lt h)).2.1
  unfold checkA at h1
  rw [h, Bool.not_true, Bool.false_or, Bool.and_eq_true] at h1
  refine ⟨bne_iff_ne.1 h1.1, fun hc => ?_⟩
  have h2 := h1.2
  rw [hc, Bool.false_or, Bool.and_eq_true, List.all_eq_true] at h2
  refine ⟨h2.1, fun p m hm => ?_⟩
  have h3 := h2.2 m (List.mem_append.2 (by cases p; exact .inr hm; exact .inl hm))
  rw [Bool.and_eq_true] at h3
  refine ⟨h3.1, fun hi => ?_⟩
  have h4 := h3.2
  rw [hi, Bool.not_true, Bool.false_or, Bool.not_eq_true'] at h4
  exact h4

/-- What is known about a word in reach of a problem program. -/
theorem prob_word {n : Nat} (h : prob n = true) (hg : gate n = false) :
    sensitive (ros n) = false ∧ ∀ m ∈ nexts true (ros n), prob m = true := by
  have h1 := (check_all (prob_lt h)).1
  unfold checkP at h1
  rw [h, hg, Bool.not_true, Bool.false_or, Bool.false_or, Bool.and_eq_true, Bool.not_eq_true',
    List.all_eq_true] at h1
  exact h1

end Verif.Cpu50
