import Verif.Card.Hopper
/- The buffered read loop: a file that is the concatenation of well formed cards loads as those cards. -/
namespace Verif.Card

/-- The buffer and the unread file together hold exactly the bytes `B`. -/
structure Inv (s : Rd) (B : List Nat) : Prop where
  len  : s.len ≤ 8691
  buf  : ∃ b, b.length = s.len ∧ B = b ++ s.rest ∧ ∀ i, (h : i < b.length) → s.mem i = b[i]
  eof  : s.eof = true → s.rest = []

theorem refill_spec {s : Rd} {B : List Nat} (h : Inv s B) :
    Inv (refill s) B ∧ (500 ≤ (refill s).len ∨ (refill s).rest = []) ∧ (refill s).ctx = s.ctx ∧ (refill s).size = s.size := by
  obtain ⟨h1, ⟨b, b1, b2, b3⟩, h3⟩ := h
  unfold refill
  split
  · rename_i hc
    refine ⟨⟨?_, ⟨b ++ s.rest.take 8192, ?_, ?_, ?_⟩, ?_⟩, ?_, rfl, rfl⟩
    · simp only [List.length_take]; omega
    · simp only [List.length_append, List.length_take]; omega
    · simp [b2]
    · intro i hi
      simp only
      rw [List.getElem_append]
      by_cases hb : i < b.length
      · rw [dif_pos hb, if_neg (by omega)]
        exact b3 i hb
      · rw [List.length_append] at hi
        rw [dif_neg hb, if_pos (by omega), List.getD_eq_getElem?_getD, List.getElem?_eq_getElem (by omega)]
        simp only [Option.getD_some, b1]
    · simp only [decide_eq_true_eq]
      intro hl
      exact List.drop_eq_nil_of_le (by omega)
    · simp only [List.length_take]
      by_cases hl : s.rest.length ≤ 8192
      · right; exact List.drop_eq_nil_of_le hl
      · left; omega
  · rename_i hc
    refine ⟨⟨h1, ⟨b, b1, b2, b3⟩, h3⟩, ?_, rfl, rfl⟩
    by_cases hl : s.len < 500
    · right
      apply h3
      cases he : s.eof
      · simp [hl, he] at hc
      · rfl
    · left; omega

/-- A card `img` whose external form is `b`: parsing a buffer that starts with `b` gives it. -/
def Parses (mode : Mode) (img : Img) (b : List Nat) : Prop :=
  0 < b.length ∧ b.length < 500 ∧ ∀ mem len, b.length ≤ len → len ≤ 8691 →
    (∀ i, (h : i < b.length) → mem i = b[i]) → parseCard mode mem len = .ok (img, some b.length)

theorem readStep_card {s : Rd} {mode img b rest} (hw : Wf s.ctx) (hm : s.ctx.mode = mode) (hp : Parses mode img b)
    (hi : Inv s (b ++ rest)) : ∃ s', readStep s = .ok s' ∧ Inv s' rest ∧ Wf s'.ctx ∧ s'.ctx.mode = mode ∧
      s'.ctx.content = s.ctx.content ++ [img] ∧ s'.ctx.pos = s.ctx.pos ∧ s'.ctx.out = s.ctx.out ∧
      (0 < s'.len ↔ rest ≠ []) := by
  obtain ⟨r1, r2, r3, r4⟩ := refill_spec hi
  obtain ⟨p1, p2, p3⟩ := hp
  obtain ⟨q1, ⟨B, b1, b2, b3⟩, q3⟩ := r1
  have hlen : b.length ≤ (refill s).len := by
    rcases r2 with h | h
    · omega
    · rw [h, List.append_nil] at b2
      rw [← b1, ← b2]; simp
  have hB : ∃ B', B = b ++ B' ∧ rest = B' ++ (refill s).rest := by
    have hb : b.length ≤ B.length := by omega
    refine ⟨B.drop b.length, ?_, ?_⟩
    · have := congrArg (List.take b.length) b2
      rw [List.take_append_of_le_length (Nat.le_refl _), List.take_append_of_le_length hb, List.take_length] at this
      conv => lhs; rw [← List.take_append_drop b.length B]
      rw [← this]
    · have := congrArg (List.drop b.length) b2
      rw [List.drop_append_of_le_length (Nat.le_refl _), List.drop_append_of_le_length hb, List.drop_length] at this
      simpa using this
  obtain ⟨B', hB1, hB2⟩ := hB
  have hparse := p3 (refill s).mem (refill s).len hlen q1 (fun i hi => by
    rw [b3 i (by omega)]
    simp [hB1, List.getElem_append_left hi])
  obtain ⟨c', e1, e2, e3, e4, e5, e6, e7⟩ := push_spec hw img
  have hpush : setImg (grow s.ctx) (grow s.ctx).cards img = .ok { c' with cards := (grow s.ctx).cards } := by
    revert e1
    unfold push
    simp only
    cases hs : setImg (grow s.ctx) (grow s.ctx).cards img with
    | ok c1 =>
      have hcards : c1.cards = (grow s.ctx).cards := by
        unfold setImg at hs
        split at hs <;> cases hs
        rfl
      intro h
      simp only [Res.bind_ok, Res.ok.injEq] at h
      rw [← h, ← hcards]
    | oob => intro h; cases h
    | fuel => intro h; cases h
  have hcg : (grow s.ctx).cards = s.ctx.cards := (grow_spec hw).2.2.2.2.1
  refine ⟨{ refill s with
      ctx := c', size := b.length, len := (refill s).len - b.length,
      mem := fun i => if i < (refill s).len - b.length then (refill s).mem (i + b.length) else (refill s).mem i },
      ?_, ⟨?_, ⟨B', ?_, hB2, ?_⟩, q3⟩, e2, by rw [e6, hm], e3, e4, e7, ?_⟩
  · have hmode : (grow s.ctx).mode = mode := by rw [(grow_spec hw).2.2.2.2.2.1, hm]
    unfold readStep
    simp only [r3, hmode, hparse, Res.bind_ok, hpush, Option.getD_some]
    rw [hcg, ← e5]
  · simp only; omega
  · simp only
    have := congrArg List.length hB1
    rw [List.length_append] at this
    omega
  · intro i hi
    have hl := congrArg List.length hB1
    rw [List.length_append] at hl
    simp only
    rw [if_pos (by omega), b3 (i + b.length) (by omega)]
    simp [hB1, List.getElem_append_right]
  · simp only
    have hl := congrArg List.length hB1
    rw [List.length_append] at hl
    have hl2 := congrArg List.length hB2
    rw [List.length_append] at hl2
    rw [ne_eq, ← List.length_eq_zero_iff]
    rcases r2 with h | h
    · omega
    · rw [h] at hl2; simp at hl2; omega

theorem readLoop_deck {mode : Mode} : ∀ (deck : List (Img × List Nat)) (n : Nat) (s : Rd), deck ≠ [] →
    deck.length ≤ n → (∀ x ∈ deck, Parses mode x.1 x.2) → Wf s.ctx → s.ctx.mode = mode →
    Inv s (deck.flatMap Prod.snd) →
    ∃ c', readLoop n s = .ok c' ∧ Wf c' ∧ c'.content = s.ctx.content ++ deck.map Prod.fst ∧
      c'.pos = s.ctx.pos ∧ c'.mode = mode ∧ c'.out = s.ctx.out := by
  intro deck
  induction deck with
  | nil => intro n s h; exact absurd rfl h
  | cons x xs ih =>
    intro n s _ hn hp hw hm hi
    obtain ⟨n, rfl⟩ : ∃ k, n = k + 1 := ⟨n - 1, by simp at hn; omega⟩
    rw [List.flatMap_cons] at hi
    obtain ⟨s', e1, e2, e3, e4, e5, e6, e7, e8⟩ := readStep_card hw hm (hp x (by simp)) hi
    simp only [readLoop, e1, Res.bind_ok]
    by_cases hx : xs = []
    · subst hx
      rw [if_neg (by rw [e8]; simp)]
      exact ⟨s'.ctx, rfl, e3, by simpa using e5, e6, e4, e7⟩
    · have hpos : 0 < s'.len := by
        rw [e8]
        obtain ⟨y, ys, rfl⟩ := List.exists_cons_of_ne_nil hx
        have := (hp y (by simp)).1
        intro h
        rw [List.flatMap_cons, List.append_eq_nil_iff] at h
        rw [h.1] at this
        simp at this
      rw [if_pos hpos]
      obtain ⟨c', f1, f2, f3, f4, f5, f6⟩ := ih n s' hx (by simpa using hn) (fun y hy => hp y (by simp [hy])) e3 e4 e2
      exact ⟨c', f1, f2, by rw [f3, e5]; simp, by rw [f4, e6], f5, by rw [f6, e7]⟩

/-- Loading a file made of well formed cards appends exactly those cards to the hopper. -/
theorem readDeck_deck {mode : Mode} (deck : List (Img × List Nat)) (n : Nat) (junk : Nat → Nat) (c : Ctx) (hd : deck ≠ [])
    (hn : deck.length ≤ n) (hp : ∀ x ∈ deck, Parses mode x.1 x.2) (hw : Wf c) (hm : c.mode = mode) :
    ∃ c', readDeck n junk c (deck.flatMap Prod.snd) = .ok c' ∧ Wf c' ∧ c'.hopper = c.hopper ++ deck.map Prod.fst ∧
      c'.mode = mode ∧ c'.pos = 0 ∧ c'.out = none := by
  obtain ⟨c1, m1, m2, m3, m4, m5, m6⟩ := moveDown_spec hw
  obtain ⟨c2, f1, f2, f3, f4, f5, f6⟩ := readLoop_deck deck n
    { ctx := c1, mem := fun i => if i = 0 then 0 else junk i, len := 0, size := 0, rest := deck.flatMap Prod.snd, eof := false }
    hd hn hp m2 (by rw [← hm]; exact m5) ⟨by simp, ⟨[], rfl, by simp, by simp⟩, by simp⟩
  refine ⟨{ c2 with out := none }, ?_, ⟨f2.cards, f2.pos⟩, ?_, f5, by rw [← m3]; exact f4, rfl⟩
  · simp [readDeck, m1, f1]
  · have hz : c2.pos = 0 := by rw [f4]; exact m3
    have : c2.content = c.hopper ++ deck.map Prod.fst := by rw [f3, ← m4]
    simp only [Ctx.hopper, Ctx.content, hz, List.drop_zero] at this ⊢
    exact this

end Verif.Card
