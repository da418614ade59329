import Verif.Conf.Spec
import Mathlib.Tactic.Tauto
/-! # Parsing lemmas -/
namespace Verif.Conf

@[simp] theorem bind_ok {α β : Type} (a : α) (f : α → Res β) : (Res.ok a >>= f) = f a := rfl
@[simp] theorem bind_oob {α β : Type} (f : α → Res β) : (Res.oob >>= f) = Res.oob := rfl
@[simp] theorem bind_badFree {α β : Type} (f : α → Res β) : (Res.badFree >>= f) = Res.badFree := rfl
@[simp] theorem bind_ovf {α β : Type} (f : α → Res β) : (Res.ovf >>= f) = Res.ovf := rfl
@[simp] theorem bind_hang {α β : Type} (f : α → Res β) : (Res.hang >>= f) = Res.hang := rfl

theorem skip_spaces (ws : List Nat) (h : ∀ x ∈ ws, isspace x = true) (l : List Nat) : skip (ws ++ l) = skip l := by
  induction ws with
  | nil => rfl
  | cons c ws ih =>
    rw [List.cons_append, skip, if_pos (h c (by simp)), ih (fun x hx => h x (by simp [hx]))]

theorem skip_stop (c : Nat) (l : List Nat) (h : isspace c = false) : skip (c :: l) = .ok (c :: l) := by
  rw [skip, if_neg (by simp [h])]

theorem space_iff (c : Nat) : isspace c = true ↔ c = 32 ∨ (9 ≤ c ∧ c ≤ 13) := by simp [isspace]
theorem digit_iff (c : Nat) : isdigit c = true ↔ 48 ≤ c ∧ c ≤ 57 := by simp [isdigit]
theorem alpha_iff (c : Nat) : isalpha c = true ↔ (65 ≤ c ∧ c ≤ 90) ∨ (97 ≤ c ∧ c ≤ 122) := by simp [isalpha]
theorem alnum_iff (c : Nat) : isalnum c = true ↔ (65 ≤ c ∧ c ≤ 90) ∨ (97 ≤ c ∧ c ≤ 122) ∨ (48 ≤ c ∧ c ≤ 57) := by
  simp [isalnum, isalpha, isdigit, or_assoc]
theorem xdigit_iff (c : Nat) : isxdigit c = true ↔ (48 ≤ c ∧ c ≤ 57) ∨ (65 ≤ c ∧ c ≤ 70) ∨ (97 ≤ c ∧ c ≤ 102) := by
  simp [isxdigit, isdigit, or_assoc]

theorem word_stop (c : Nat) (h : isalnum c = true ∨ c = 45) : isspace c = false ∧ c ≠ 35 ∧ c ≠ 10 ∧ c ≠ 0 ∧ c ≠ 61 := by
  rw [alnum_iff] at h
  refine ⟨?_, by omega, by omega, by omega, by omega⟩
  cases q : isspace c
  · rfl
  · rw [space_iff] at q; omega

theorem nameLoop_word : ∀ (w acc : List Nat) (c : Nat) (l : List Nat), (∀ x ∈ w, isalnum x = true ∨ x = 45) →
    acc.length + w.length < 20 → ¬ (isalnum c = true ∨ c = 45) →
    nameLoop (w ++ c :: l) acc = .ok (acc ++ w.map toupper, c :: l) := by
  intro w
  induction w with
  | nil => intro acc c l _ _ hc; rw [List.nil_append, nameLoop, if_neg (by tauto)]; simp
  | cons x w ih =>
    intro acc c l hw hl hc
    simp only [List.length_cons] at hl
    rw [List.cons_append, nameLoop, if_pos ⟨by omega, hw x (by simp)⟩,
      ih _ c l (fun y hy => hw y (by simp [hy])) (by simp; omega) hc]
    simp

theorem bare_word : ∀ (w str : List Nat) (c : Nat) (l : List Nat), (∀ x ∈ w, isspace x = false ∧ x ≠ 0) →
    str.length + w.length < 1024 → (isspace c = true ∨ c = 0) →
    bare (w ++ c :: l) str = .ok (str ++ w.map toupper, c :: l) := by
  intro w
  induction w with
  | nil =>
    intro str c l _ hl hc
    rw [List.nil_append, bare, if_neg (by simp at hl; omega)]
    rw [if_pos (by tauto)]
    simp
  | cons x w ih =>
    intro str c l hw hl hc
    have hx := hw x (by simp)
    simp only [List.length_cons] at hl
    have hx10 : x ≠ 10 := by rintro rfl; exact absurd hx.1 (by decide)
    rw [List.cons_append, bare, if_neg (by omega)]
    rw [if_neg (by rintro (q | q | q); · rw [hx.1] at q; cases q
                   · exact hx10 q
                   · exact hx.2 q),
      ih _ c l (fun y hy => hw y (by simp [hy])) (by simp; omega) hc]
    simp

theorem quoted_word : ∀ (w str : List Nat) (len c : Nat) (l : List Nat), 34 ∉ w → len + w.length < 1024 →
    (isspace c = true ∨ c = 0) → quoted (w ++ 34 :: c :: l) str len = .ok (str ++ w, c :: l) := by
  intro w
  induction w with
  | nil =>
    intro str len c l _ hl hc
    rw [List.nil_append, quoted, if_neg (by simp at hl; omega)]
    simp only [if_true]
    have hc34 : c ≠ 34 := by rintro rfl; rcases hc with q | q; exact absurd q (by decide); cases q
    rw [if_neg hc34, if_pos (by tauto)]
    simp
  | cons x w ih =>
    intro str len c l hw hl hc
    simp only [List.mem_cons, not_or] at hw
    simp only [List.length_cons] at hl
    rw [List.cons_append, quoted.eq_def]
    simp only
    rw [if_neg (by omega), if_neg (fun q => hw.1 q.symm), ih _ _ c l hw.2 (by omega) hc]
    simp

/-- One option is parsed as meant. -/
theorem getOption_one (o : Opt) (ws name : List Nat) (v : Val) (c : Nat) (l : List Nat) (hws : ∀ x ∈ ws, isspace x = true)
    (h : OkOpt name v) (hc : isspace c = true ∨ c = 0) :
    getOption o (ws ++ written name v ++ c :: l) = .ok (true, meant o name v, c :: l) := by
  obtain ⟨x, n, rfl⟩ : ∃ x n, name = x :: n := by
    cases name with | nil => exact absurd rfl h.ne | cons x n => exact ⟨x, n, rfl⟩
  have hx := word_stop x (h.chars x (by simp))
  have hcstop : ¬ (isalnum c = true ∨ c = 45) := by
    rw [alnum_iff]; rcases hc with q | q
    · rw [space_iff] at q; omega
    · omega
  have hc61 : c ≠ 61 := by rcases hc with q | q
                           · rw [space_iff] at q; omega
                           · omega
  have hcnt := h.len
  have hend : ∀ r, atEnd (x :: r) = false := by intro r; simp [atEnd, hx]
  unfold getOption
  rw [List.append_assoc, skip_spaces ws hws]
  cases v with
  | none =>
    rw [written, List.cons_append, skip_stop x _ hx.1]
    simp only [bind_ok]
    rw [hend, ← List.cons_append, nameLoop_word (x :: n) [] c l h.chars (by simpa using hcnt) hcstop]
    simp only [bind_ok, List.nil_append, List.length_map, Bool.false_eq_true, if_false]
    rw [if_neg (by omega), if_neg hc61]
    rfl
  | bare w =>
    obtain ⟨b1, b2, b3, b4, b5⟩ := h.bare w rfl
    obtain ⟨y, w', rfl⟩ : ∃ y w', w = y :: w' := by
      cases w with | nil => exact absurd rfl b5 | cons x n => exact ⟨x, n, rfl⟩
    have hy := b2 y (by simp)
    have hy34 : y ≠ 34 := by simpa using b3
    have hy35 : y ≠ 35 := by simpa using b4
    have hy10 : y ≠ 10 := by rintro rfl; exact absurd hy.1 (by decide)
    rw [written, show x :: n ++ 61 :: y :: w' ++ c :: l = x :: n ++ 61 :: (y :: w' ++ c :: l) by simp]
    rw [List.cons_append, skip_stop x _ hx.1]
    simp only [bind_ok]
    rw [hend, ← List.cons_append, nameLoop_word (x :: n) [] 61 _ h.chars (by simpa using hcnt) (by decide)]
    simp only [bind_ok, List.nil_append, List.length_map, Bool.false_eq_true, if_false, if_true]
    rw [if_neg (by omega)]
    have hgs : ∀ o, getString o (y :: w' ++ c :: l) = .ok (true, { o with str := (y :: w').map toupper }, c :: l) := by
      intro o
      unfold getString
      rw [List.cons_append, skip_stop y _ hy.1]
      simp only [bind_ok]
      rw [show atEnd (y :: (w' ++ c :: l)) = false by simp [atEnd, hy35, hy10, hy.2]]
      simp only [Bool.false_eq_true, if_false]
      split
      · rename_i heq; exact absurd (List.cons.inj heq).1 hy34
      · rw [← List.cons_append, bare_word (y :: w') [] c l b2 (by simpa using b1) hc]
        simp
    rw [hgs]
    rfl
  | quoted w =>
    obtain ⟨b1, b2⟩ := h.quoted w rfl
    rw [written, show x :: n ++ 61 :: 34 :: (w ++ [34]) ++ c :: l = x :: n ++ 61 :: 34 :: (w ++ 34 :: c :: l) by simp]
    rw [List.cons_append, skip_stop x _ hx.1]
    simp only [bind_ok]
    rw [hend, ← List.cons_append, nameLoop_word (x :: n) [] 61 _ h.chars (by simpa using hcnt) (by decide)]
    simp only [bind_ok, List.nil_append, List.length_map, Bool.false_eq_true, if_false, if_true]
    rw [if_neg (by omega)]
    have hgs : ∀ o, getString o (34 :: (w ++ 34 :: c :: l)) = .ok (true, { o with str := w }, c :: l) := by
      intro o
      unfold getString
      rw [skip_stop 34 _ (by decide)]
      simp only [bind_ok, atEnd]
      rw [quoted_word w [] 0 c l b2 (by omega) hc]
      rfl
    rw [hgs]
    rfl

theorem getOption_end (o : Opt) (e : List Nat) (h : IsEnd e) :
    ∃ l, getOption o e = .ok (false, { o with opt := [], str := [], flags := 0 }, l) := by
  obtain ⟨ws, c, r, rfl, h1, h2⟩ := h
  refine ⟨c :: r, ?_⟩
  have hs : isspace c = false := by rcases h2 with q | q; rw [q]; rfl; rw [q.1]; rfl
  have he : atEnd (c :: r) = true := by rcases h2 with q | q; rw [q]; rfl; rw [q.1]; rfl
  unfold getOption
  rw [skip_spaces ws h1, skip_stop c _ hs]
  simp [he]

/-- A line of options followed by its end begins, after each option, with a blank or the end. -/
theorem lineOf_head (l : List (List Nat × List Nat × Val)) (e : List Nat) (he : IsEnd e)
    (h : ∀ p ∈ l, p.1 ≠ [] ∧ (∀ x ∈ p.1, isspace x = true)) :
    ∃ c r, lineOf l ++ e = c :: r ∧ (isspace c = true ∨ c = 0) := by
  cases l with
  | nil =>
    obtain ⟨ws, c, r, rfl, h1, h2⟩ := he
    cases ws with
    | nil => rcases h2 with q | q
             · exact ⟨c, r, rfl, Or.inr q⟩
             · exact absurd rfl q.2
    | cons w ws => exact ⟨w, ws ++ c :: r, rfl, Or.inl (h1 w (by simp))⟩
  | cons p l =>
    obtain ⟨ws, name, v⟩ := p
    obtain ⟨h1, h2⟩ := h (ws, name, v) (by simp)
    cases ws with
    | nil => exact absurd rfl h1
    | cons w ws => exact ⟨w, ws ++ written name v ++ lineOf l ++ e, by simp [lineOf], Or.inl (h2 w (by simp))⟩

end Verif.Conf
