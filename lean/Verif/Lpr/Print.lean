import Verif.Lpr.Model
import Verif.Bus.Spec
/-!
# The paper of the 1443 printer (C46, C47, C94, C95)
-/
namespace Verif.Lpr
open Verif.Bus
open Verif.Card (Res look)

namespace Spec

/-- What is printed for a byte: its character, or a full stop if it has none that can be printed. -/
def glyph (v : Nat) : Nat := if 0x20 ≤ ebcdicToAsciiTab.getD v 0 ∧ ebcdicToAsciiTab.getD v 0 ≤ 0x7e then ebcdicToAsciiTab.getD v 0 else 0x2e

/-- `t` is the line `l` without its trailing blanks; the first column is kept whatever it is. -/
def Trimmed (l t : List Nat) : Prop :=
  (∃ n, l = t ++ List.replicate n 0x20) ∧ (l ≠ [] → t ≠ []) ∧ (1 < t.length → t.getLast? ≠ some 0x20)

/-- `n` new lines. -/
def newlines (n : Nat) : List Nat := (List.replicate n [13, 10]).flatten

/-- The carriage control tape: channel and line, counted from zero. -/
def stops : List (Nat × Nat) := [(1, 0), (2, 6), (3, 12), (4, 18), (5, 24), (6, 30), (7, 36), (8, 42), (10, 48), (11, 54), (12, 60), (9, 62)]

/-- The next line below `row` where the tape has the channel. -/
def NextStop (row ch k : Nat) : Prop := (ch, k) ∈ stops ∧ row < k

end Spec

theorem bind_inv {α β : Type} {x : Res α} {f : α → Res β} {b : β} (h : x.bind f = .ok b) : ∃ a, x = .ok a ∧ f a = .ok b := by
  cases x with
  | ok a => exact ⟨a, rfl, h⟩
  | oob => cases h
  | fuel => cases h

theorem bk {α β : Type} (a : α) (f : α → Res β) : (Res.ok a).bind f = f a := rfl

/-! ## The line -/

theorem ascii_tab (v : Nat) (h : v < 256) : Xlat.ebcdicToAscii v = some (ebcdicToAsciiTab.getD v 0) := by
  have key : ∀ v : Fin 256, Xlat.ebcdicToAscii v = some (ebcdicToAsciiTab.getD v.val 0) := by decide +kernel
  exact key ⟨v, h⟩

theorem glyph_ok (v : Nat) (h : v < 256) : glyph v = .ok (Spec.glyph v) := by
  unfold glyph
  rw [ascii_tab v h]
  simp [look, Res.bind, Spec.glyph, isPrint]

theorem chars_ok (buf : List Nat) : ∀ (bs : List Nat) (i : Nat), i + bs.length ≤ 150 → (∀ j, j < bs.length → buf[i + j]? = bs[j]?) → (∀ v ∈ bs, v < 256) →
    chars buf bs.length i = .ok (bs.map Spec.glyph) := by
  intro bs
  induction bs with
  | nil => intro i _ _ _; rfl
  | cons v vs ih =>
    intro i hl hb hv
    have h0 := hb 0 (by simp)
    simp only [Nat.add_zero, List.getElem?_cons_zero] at h0
    have ih' := ih (i + 1) (by simp at hl ⊢; omega) (by
      intro j hj
      have := hb (j + 1) (by simp; omega)
      rw [show i + 1 + j = i + (j + 1) by omega, this]
      simp) (fun v h => hv v (List.mem_cons_of_mem _ h))
    simp only [List.length_cons, chars]
    rw [h0]
    simp only [look, Res.bind]
    rw [glyph_ok v (hv v List.mem_cons_self)]
    simp only
    rw [if_pos (by simp at hl; omega), ih']
    rfl

theorem dropWhile_blank : ∀ l : List Nat, ∃ n, l = List.replicate n 0x20 ++ l.dropWhile (· == 0x20) ∧ (l.dropWhile (· == 0x20)).head? ≠ some 0x20
  | [] => ⟨0, rfl, by simp⟩
  | v :: l => by
    by_cases h : v = 0x20
    · obtain ⟨n, a, b⟩ := dropWhile_blank l
      refine ⟨n + 1, ?_, ?_⟩
      · simp only [List.dropWhile_cons, h, beq_self_eq_true, if_true, List.replicate_succ, List.cons_append, List.cons.injEq, true_and]
        exact a
      · simp only [List.dropWhile_cons, h, beq_self_eq_true, if_true]
        exact b
    · refine ⟨0, ?_, ?_⟩ <;> simp [List.dropWhile_cons, h]

theorem trimTail_spec (l : List Nat) : ∃ n, l = trimTail l ++ List.replicate n 0x20 ∧ (trimTail l).getLast? ≠ some 0x20 := by
  obtain ⟨n, a, b⟩ := dropWhile_blank l.reverse
  refine ⟨n, ?_, ?_⟩
  · have := congrArg List.reverse a
    rw [List.reverse_reverse, List.reverse_append, List.reverse_replicate] at this
    exact this
  · unfold trimTail
    rw [List.getLast?_reverse]
    exact b

theorem trim_spec (l : List Nat) : Spec.Trimmed l (trim l) := by
  cases l with
  | nil => exact ⟨⟨0, rfl⟩, by simp, by simp [trim]⟩
  | cons c cs =>
    obtain ⟨n, a, b⟩ := trimTail_spec cs
    refine ⟨⟨n, by simp only [trim, List.cons_append]; rw [← a]⟩, by simp [trim], ?_⟩
    intro h
    simp only [trim] at h ⊢
    cases ht : trimTail cs with
    | nil => rw [ht] at h; simp at h
    | cons d ds =>
      rw [ht] at b
      simpa [List.getLast?_cons_cons] using b

/-- The specification determines the line. -/
theorem trimmed_unique {l t t' : List Nat} (h : Spec.Trimmed l t) (h' : Spec.Trimmed l t') : t = t' := by
  obtain ⟨⟨n, a⟩, b, c⟩ := h
  obtain ⟨⟨m, a'⟩, b', c'⟩ := h'
  have aux : ∀ (n m : Nat) (t t' : List Nat), t ++ List.replicate n 0x20 = t' ++ List.replicate m 0x20 → (1 < t.length → t.getLast? ≠ some 0x20) → (t ++ List.replicate n 0x20 ≠ [] → t' ≠ []) → n ≤ m → t = t' := by
    intro n m t t' e h1 h2 hnm
    obtain ⟨k, rfl⟩ := Nat.exists_eq_add_of_le hnm
    rw [Nat.add_comm n k, ← List.replicate_append_replicate, ← List.append_assoc] at e
    have e2 := List.append_cancel_right e
    cases k with
    | zero => simpa using e2
    | succ k =>
      exfalso
      have ht : t' ≠ [] := h2 (by rw [e2]; simp)
      have hlen : 1 < t.length := by
        rw [e2]
        have := List.length_pos_iff.2 ht
        simp; omega
      refine h1 hlen ?_
      rw [e2, List.replicate_succ', ← List.append_assoc]
      simp
  rcases Nat.le_total n m with h | h
  · exact aux n m t t' (a ▸ a') c (fun q => b' (by rw [a]; exact q)) h
  · exact (aux m n t' t (a' ▸ a) c' (fun q => b (by rw [a']; exact q)) h).symm

/-! ## Spacing -/

theorem newlines_succ (n : Nat) : Spec.newlines (n + 1) = [13, 10] ++ Spec.newlines n := by simp [Spec.newlines, List.replicate_succ]

theorem legacy_get (i : Nat) (h : i < 66) : ∃ v, legacy[i]? = some v := by
  have : i < legacy.length := h
  exact ⟨_, List.getElem?_eq_getElem this⟩

/-- Channel 9 and channel 12 of the lines spaced over. -/
def passed (ch row n : Nat) : Bool := (List.range n).any (fun j => tst (legacy.getD (row + j) 0) (0x1000 >>> ch))

theorem passed_succ (ch row n : Nat) : passed ch row (n + 1) = (tst (legacy.getD row 0) (0x1000 >>> ch) || passed ch (row + 1) n) := by
  unfold passed
  rw [List.range_succ_eq_map, List.any_cons, List.any_map]
  simp only [Nat.add_zero]
  congr 1
  apply List.any_congr rfl
  intro j
  simp only [Function.comp]
  rw [show row + (j + 1) = row + 1 + j by omega]

theorem spaceLoop_ok : ∀ (l : Nat) (s : S) (f : List Nat) (c9 c12 : Bool) (r : Nat), s.file = some f → s.fcb = legacy → s.lpp = 66 → s.row + l ≤ 66 →
    spaceLoop l ⟨s, c9, c12, r⟩ = .ok ⟨{ s with file := some (f ++ Spec.newlines l), row := s.row + l }, c9 || passed 9 s.row l, c12 || passed 12 s.row l, r + l⟩ := by
  intro l
  induction l with
  | zero =>
    intro s f c9 c12 r hf _ _ _
    simp [spaceLoop, Spec.newlines, passed, ← hf]
  | succ l ih =>
    intro s f c9 c12 r hf hc hp hr
    obtain ⟨v, hv⟩ := legacy_get s.row (by omega)
    have hd : legacy.getD s.row 0 = v := by rw [List.getD_eq_getElem?_getD, hv]; rfl
    have k := ih { s with file := some (f ++ [13, 10]), row := s.row + 1 } (f ++ [13, 10]) (c9 || tst v (0x1000 >>> 9)) (c12 || tst v (0x1000 >>> 12)) (r + 1) rfl hc hp (by show s.row + 1 + l ≤ 66; omega)
    have e : (put s [13, 10]) = .ok { s with file := some (f ++ [13, 10]) } := by unfold put; rw [hf]
    simp only [spaceLoop]
    rw [e, bk]
    have e2 : look (s.fcb[s.row]?) = .ok v := by rw [hc, hv]; rfl
    refine (congrArg (fun x => Res.bind x _) e2).trans ?_
    rw [bk, if_neg (by show ¬ s.row + 1 > s.lpp; omega)]
    refine k.trans ?_
    simp only [passed_succ, hd, newlines_succ, List.append_assoc, Bool.or_assoc, Nat.add_assoc, Nat.add_comm 1 l]

theorem spaceLoop_oob : ∀ (l : Nat) (s : S) (f : List Nat) (c9 c12 : Bool) (r : Nat), s.file = some f → s.fcb = legacy → s.lpp = 66 → s.row ≤ 66 → 66 < s.row + l →
    spaceLoop l ⟨s, c9, c12, r⟩ = .oob := by
  intro l
  induction l with
  | zero => intro s f c9 c12 r _ _ _ _ h; omega
  | succ l ih =>
    intro s f c9 c12 r hf hc hp hr hl
    have e : (put s [13, 10]) = .ok { s with file := some (f ++ [13, 10]) } := by unfold put; rw [hf]
    simp only [spaceLoop]
    rw [e, bk]
    by_cases h66 : s.row = 66
    · have e2 : look (s.fcb[s.row]?) = .oob := by rw [hc, h66]; rfl
      exact (congrArg (fun x => Res.bind x _) e2)
    · obtain ⟨v, hv⟩ := legacy_get s.row (by omega)
      have e2 : look (s.fcb[s.row]?) = .ok v := by rw [hc, hv]; rfl
      refine (congrArg (fun x => Res.bind x _) e2).trans ?_
      rw [bk, if_neg (by show ¬ s.row + 1 > s.lpp; omega)]
      exact ih { s with file := some (f ++ [13, 10]), row := s.row + 1 } (f ++ [13, 10]) _ _ _ rfl hc hp (by show s.row + 1 ≤ 66; omega) (by show 66 < s.row + 1 + l; omega)

/-- A field of the command and what it asks for. -/
theorem field_space (cmd : Nat) (h : (cmd >>> 3) &&& 0x1f < 4) : ((cmd >>> 3) &&& 0x1f) = cmd / 8 % 32 := by
  rw [Nat.shiftRight_eq_div_pow, show (0x1f : Nat) = 2 ^ 5 - 1 from rfl, Nat.and_two_pow_sub_one_eq_mod]

/-! ## Skipping -/

/-- The tape is the documented one. -/
theorem legacy_marks (i ch : Nat) (hi : i < 66) (h1 : 1 ≤ ch) (h2 : ch ≤ 12) : (legacy.getD i 0 &&& (0x1000 >>> ch) ≠ 0) ↔ (ch, i) ∈ Spec.stops := by
  have key : ∀ i : Fin 66, ∀ ch : Fin 13, 1 ≤ ch.val → ((legacy.getD i.val 0 &&& (0x1000 >>> ch.val) ≠ 0) ↔ (ch.val, i.val) ∈ Spec.stops) := by decide +kernel
  exact key ⟨i, hi⟩ ⟨ch, by omega⟩ h1

deriving instance DecidableEq for Sk

theorem skipScan_all (row ch : Nat) (hr : row ≤ 66) (h2 : ch < 16) :
    (∃ k, Spec.NextStop row ch k ∧ k < 66 ∧ skipScan (0x1000 >>> ch) row 66 (legacy.drop (row + 1)) ⟨row + 1, 0, 0, 0⟩ = .ok ⟨k, k - 1 - row, k - 1 - row, 0⟩) ∨
    ((∀ k, ¬ Spec.NextStop row ch k) ∧ skipScan (0x1000 >>> ch) row 66 (legacy.drop (row + 1)) ⟨row + 1, 0, 0, 0⟩ = .oob) := by
  have key : ∀ row : Fin 67, ∀ ch : Fin 16,
      (∃ p ∈ Spec.stops, p.1 = ch.val ∧ row.val < p.2 ∧ p.2 < 66 ∧ skipScan (0x1000 >>> ch.val) row.val 66 (legacy.drop (row.val + 1)) ⟨row.val + 1, 0, 0, 0⟩ = .ok ⟨p.2, p.2 - 1 - row.val, p.2 - 1 - row.val, 0⟩) ∨
      ((∀ p ∈ Spec.stops, ¬ (p.1 = ch.val ∧ row.val < p.2)) ∧ skipScan (0x1000 >>> ch.val) row.val 66 (legacy.drop (row.val + 1)) ⟨row.val + 1, 0, 0, 0⟩ = .oob) := by decide +kernel
  rcases key ⟨row, by omega⟩ ⟨ch, h2⟩ with ⟨p, hp, e, hl, h66, hs⟩ | ⟨hn, hs⟩
  · exact Or.inl ⟨p.2, ⟨by rw [← show p.1 = ch from e]; exact hp, hl⟩, h66, hs⟩
  · exact Or.inr ⟨fun k hk => hn (ch, k) hk.1 ⟨rfl, hk.2⟩, hs⟩

theorem feedLoop_ok : ∀ (n : Nat) (s : S) (f : List Nat), s.file = some f → s.lpp = 66 → s.row + n ≤ 66 →
    feedLoop n s = .ok { s with file := some (f ++ Spec.newlines n), row := s.row + n } := by
  intro n
  induction n with
  | zero => intro s f hf _ _; simp [feedLoop, Spec.newlines, ← hf]
  | succ n ih =>
    intro s f hf hp hr
    have e : (put s [13, 10]) = .ok { s with file := some (f ++ [13, 10]) } := by unfold put; rw [hf]
    have k := ih { s with file := some (f ++ [13, 10]), row := s.row + 1 } (f ++ [13, 10]) rfl hp (by show s.row + 1 + n ≤ 66; omega)
    simp only [feedLoop]
    rw [e, bk, if_neg (by show ¬ s.row + 1 > s.lpp; omega), bk]
    refine k.trans ?_
    simp only [newlines_succ, List.append_assoc, Nat.add_assoc, Nat.add_comm 1 n]

theorem skip_ok (s : S) (f : List Nat) (ch k : Nat) (hf : s.file = some f) (hc : s.fcb = legacy) (hp : s.lpp = 66) (hr : s.row ≤ 66) (l : Nat) (hm : l &&& 0xf = ch) (hk : Spec.NextStop s.row ch k) :
    skip s l = .ok ({ s with file := some (f ++ Spec.newlines (k - 1 - s.row)), row := k - 1 }, k - 1 - s.row) := by
  have h16 : ch < 16 := by rw [← hm]; exact Nat.lt_of_le_of_lt Nat.and_le_right (by decide)
  rcases skipScan_all s.row ch hr h16 with ⟨k', hk', h66, hs⟩ | ⟨hn, -⟩
  · have : k' = k := by
      have key : ∀ p ∈ Spec.stops, ∀ q ∈ Spec.stops, p.1 = q.1 → p.2 = q.2 := by decide
      exact key _ hk'.1 _ hk.1 rfl
    subst this
    have hlt := hk'.2
    have h12 : ∀ p ∈ Spec.stops, 1 ≤ p.1 ∧ p.1 ≤ 12 := by decide
    have hv : legacy.getD k' 0 &&& (0x1000 >>> ch) ≠ 0 := (legacy_marks k' ch h66 (h12 _ hk'.1).1 (h12 _ hk'.1).2).2 hk'.1
    obtain ⟨v, hg⟩ := legacy_get k' h66
    have hd : legacy.getD k' 0 = v := by rw [List.getD_eq_getElem?_getD, hg]; rfl
    rw [hd] at hv
    unfold skip
    simp only [hm, hc, hp]
    rw [hs]
    simp only [Res.bind, if_true, ne_eq, not_true, if_false, hc, hg, look]
    rw [if_pos hv, feedLoop_ok _ s f hf hp (by omega)]
    simp only [show s.row + (k' - 1 - s.row) = k' - 1 by omega, hc, hp]
  · exact absurd hk (hn k)

theorem skip_oob (s : S) (ch : Nat) (hc : s.fcb = legacy) (hp : s.lpp = 66) (hr : s.row ≤ 66) (l : Nat) (hm : l &&& 0xf = ch) (hk : ∀ k, ¬ Spec.NextStop s.row ch k) :
    skip s l = .oob := by
  have h16 : ch < 16 := by rw [← hm]; exact Nat.lt_of_le_of_lt Nat.and_le_right (by decide)
  rcases skipScan_all s.row ch hr h16 with ⟨k', hk', -⟩ | ⟨-, hs⟩
  · exact absurd hk' (hk k')
  · unfold skip
    simp only [hm, hc, hp]
    rw [hs]
    rfl

end Verif.Lpr
