import Verif.Card.Queue
/- Properties C16-C24, C62, C63: card decks. -/
namespace Verif.Card

/-- A card with the given leading columns, the rest blank. -/
def lead (cs : List Nat) : Img := cs ++ List.replicate (80 - cs.length) 0

/-! ### C16 binary format -/

/-- C16. A non-empty deck saved in binary format comes back identical.
Missing: the empty deck, for which the property fails (`C16_violated_empty_deck`). -/
theorem C16_binary_round_trip_partial (deck : List Img) (hne : deck ≠ []) (h : ∀ m ∈ deck, Card m) :
    ComesBackAs .bin deck deck := by
  have := comesBack (mode := .bin) deck id hne (fun m hm => h m hm)
    (fun m hm => ⟨punchBin m, rfl, Parses_bin m (h m hm)⟩)
  simpa using this

/-- A deck of two different cards meets the hypotheses. -/
example : ∀ m ∈ [lead [1, 0xfff, 0x123], lead []], Card m := by
  intro m hm
  simp only [List.mem_cons, List.not_mem_nil, or_false] at hm
  rcases hm with rfl | rfl
  · exact ⟨by decide, by decide⟩
  · exact ⟨by decide, by decide⟩

theorem load_empty_bin (n : Nat) (junk : Nat → Nat) : loadedCards (n + 2) junk .bin [] = .ok [lead [0xfff]] := by
  obtain ⟨c', -, e2, e3, e4, e5, e6, e7⟩ := readStep_ok (s := startRd (fresh .bin) junk []) (fresh_wf _)
    (img := blank.set 0 0xfff) (o := none) rfl
  have hr : readDeck (n + 2) junk (fresh .bin) [] = .ok { c' with out := none } := by
    rw [readDeck_eq (c1 := fresh .bin) rfl]
    simp only [readLoop, e7, Res.bind_ok]
    rfl
  have hc : c'.pos = 0 := e4
  have hh : Ctx.hopper { c' with out := none } = [lead [0xfff]] := by
    show c'.hopper = _
    rw [hopper_zero hc, e3]; rfl
  simp only [loadedCards, hr, Res.bind_ok]
  exact drain_ok _ _ _ ⟨e2.cards, e2.pos⟩ hh (by decide) (by simp)

theorem load_empty_ebcdic (n : Nat) (junk : Nat → Nat) : loadedCards (n + 2) junk .ebcdic [] = .ok [lead [0xfff]] := by
  obtain ⟨c', -, e2, e3, e4, e5, e6, e7⟩ := readStep_ok (s := startRd (fresh .ebcdic) junk []) (fresh_wf _)
    (img := blank.set 0 0xfff) (o := some 0) rfl
  have hr : readDeck (n + 2) junk (fresh .ebcdic) [] = .ok { c' with out := none } := by
    rw [readDeck_eq (c1 := fresh .ebcdic) rfl]
    simp only [readLoop, e7, Res.bind_ok]
    rfl
  have hc : c'.pos = 0 := e4
  have hh : Ctx.hopper { c' with out := none } = [lead [0xfff]] := by
    show c'.hopper = _
    rw [hopper_zero hc, e3]; rfl
  simp only [loadedCards, hr, Res.bind_ok]
  exact drain_ok _ _ _ ⟨e2.cards, e2.pos⟩ hh (by decide) (by simp)

theorem load_empty_text (mode : Mode) (hm : mode = .text ∨ mode = .octal ∨ mode = .auto) (n : Nat) (junk : Nat → Nat) :
    loadedCards (n + 2) junk mode [] = .ok [lead []] := by
  obtain ⟨c', -, e2, e3, e4, e5, e6, e7⟩ := readStep_ok (s := startRd (fresh mode) junk []) (fresh_wf _)
    (img := blank) (o := some 0) (by rcases hm with rfl | rfl | rfl <;> rfl)
  have hr : readDeck (n + 2) junk (fresh mode) [] = .ok { c' with out := none } := by
    rw [readDeck_eq (c1 := fresh mode) rfl]
    simp only [readLoop, e7, Res.bind_ok]
    rfl
  have hc : c'.pos = 0 := e4
  have hh : Ctx.hopper { c' with out := none } = [lead []] := by
    show c'.hopper = _
    rw [hopper_zero hc, e3]; rfl
  simp only [loadedCards, hr, Res.bind_ok]
  exact drain_ok _ _ _ ⟨e2.cards, e2.pos⟩ hh (by decide) (by simp)

theorem saved_empty (mode : Mode) : savedFile mode [] = .ok [] := savedFile_spec mode [] rfl

/-- The empty deck comes back as one card in every format. -/
theorem empty_deck (mode : Mode) : ComesBackAs mode [] [lead (if mode = .bin ∨ mode = .ebcdic then [0xfff] else [])] := by
  refine ⟨2, fun n hn junk => ?_⟩
  obtain ⟨n, rfl⟩ : ∃ k, n = k + 2 := ⟨n - 2, by omega⟩
  simp only [roundTrip, saved_empty, Res.bind_ok]
  cases mode with
  | bin => exact load_empty_bin n junk
  | ebcdic => exact load_empty_ebcdic n junk
  | text => exact load_empty_text _ (by simp) n junk
  | octal => exact load_empty_text _ (by simp) n junk
  | auto => exact load_empty_text _ (by simp) n junk

theorem comesBack_unique {mode deck d1 d2} (h1 : ComesBackAs mode deck d1) (h2 : ComesBackAs mode deck d2) : d1 = d2 := by
  obtain ⟨n1, h1⟩ := h1
  obtain ⟨n2, h2⟩ := h2
  have a := h1 (max n1 n2) (by omega) (fun _ => 0)
  have b := h2 (max n1 n2) (by omega) (fun _ => 0)
  rw [a] at b
  simpa using b

/-- C16, negation: the empty deck saved in binary format does not come back empty, it comes back as
one card with column 1 fully punched. -/
theorem C16_violated_empty_deck : ComesBackAs .bin [] [lead [0xfff]] ∧ ¬ ComesBackAs .bin [] [] := by
  have h := empty_deck .bin
  exact ⟨h, fun h2 => by have := comesBack_unique h h2; cases this⟩

/-! ### C17 EBCDIC format -/

/-- C17. A non-empty deck whose columns are all codes of EBCDIC characters comes back identical. -/
theorem C17_ebcdic_round_trip_partial (deck : List Img) (hne : deck ≠ [])
    (h : ∀ m ∈ deck, m.length = 80 ∧ ∀ x ∈ m, ∃ e, e < 256 ∧ ebcdicToHol e = some x) :
    ComesBackAs .ebcdic deck deck := by
  have := comesBack (mode := .ebcdic) deck id hne (fun m hm => ⟨(h m hm).1, fun x hx => by
      obtain ⟨e, e1, e2⟩ := (h m hm).2 x hx
      obtain ⟨c, c1, c2, -⟩ := C13_ebcdic_round_trip e e1
      rw [e2] at c1; cases c1; exact c2⟩)
    (fun m hm => Parses_ebcdic m (h m hm).1 (h m hm).2)
  simpa using this

/-- The card of "A1" followed by blanks meets the hypothesis. -/
example : ∀ x ∈ lead [0x900, 0x100], ∃ e, e < 256 ∧ ebcdicToHol e = some x := by
  intro x hx
  have : x = 0x900 ∨ x = 0x100 ∨ x = 0 := by
    have hd : ∀ y ∈ lead [0x900, 0x100], y = 0x900 ∨ y = 0x100 ∨ y = 0 := by decide
    exact hd x hx
  rcases this with rfl | rfl | rfl
  · exact ⟨0xc1, by decide, by decide⟩
  · exact ⟨0xf1, by decide, by decide⟩
  · exact ⟨0x40, by decide, by decide⟩

theorem C17_violated_empty_deck : ComesBackAs .ebcdic [] [lead [0xfff]] ∧ ¬ ComesBackAs .ebcdic [] [] := by
  have h := empty_deck .ebcdic
  exact ⟨h, fun h2 => by have := comesBack_unique h h2; cases this⟩

/-! ### C18 text format -/

/-- The card of a line of characters, padded with blanks. -/
def lineCard (s : List Nat) : Img := (s ++ List.replicate (80 - s.length) sp).map col029

theorem cardOf_card (s : List Nat) (hl : s.length = 80) (hp : ∀ c ∈ s, Printable c) : Card (cardOf s) := by
  refine ⟨by simp [cardOf, hl], ?_⟩
  intro x hx
  obtain ⟨c, hc, rfl⟩ := List.mem_map.mp hx
  exact (col029_facts c (hp c hc)).2.1

/-- C18. A non-empty deck of cards of printable characters saved as text comes back identical,
provided no card is a line with a meaning of its own (`~` alone, `~raw`, `~eor`, `~eof`, `~eoi`).
Missing: those cards and the empty deck, for which the property fails. -/
theorem C18_text_round_trip_partial (deck : List (List Nat)) (hne : deck ≠ [])
    (h : ∀ s ∈ deck, s.length = 80 ∧ (∀ c ∈ s, Printable c) ∧ ¬ Special s) :
    ComesBackAs .text (deck.map cardOf) (deck.map cardOf) := by
  have := comesBack (mode := .text) (deck.map cardOf) id (by simpa using hne)
    (fun m hm => by
      obtain ⟨s, hs, rfl⟩ := List.mem_map.mp hm
      exact cardOf_card s (h s hs).1 (h s hs).2.1)
    (fun m hm => by
      obtain ⟨s, hs, rfl⟩ := List.mem_map.mp hm
      exact Parses_text s (h s hs).1 (h s hs).2.1 (h s hs).2.2 (Or.inl rfl))
  simpa using this

/-- "~A" is an ordinary line. -/
example : let s := [tilde, 65] ++ List.replicate 78 sp
    s.length = 80 ∧ (∀ c ∈ s, Printable c) ∧ ¬ Special s := by
  refine ⟨by decide, ?_, ?_⟩
  · unfold Printable; decide
  · intro h
    have h2 := h.2
    revert h2
    decide

theorem parse_tilde (mem : Nat → Nat) (h : mem 0 = tilde ∧ mem 1 = lf ∧ mem 2 = 65 ∧ mem 3 = lf) :
    parseCard .text mem 4 = .ok (blank, some 4) := by
  obtain ⟨h0, h1, h2, h3⟩ := h
  have r1 := rdB_ok (mem := mem) (show 1 ≤ 8691 by omega)
  have r2 := rdB_ok (mem := mem) (show 2 ≤ 8691 by omega)
  have r3 := rdB_ok (mem := mem) (show 3 ≤ 8691 by omega)
  have ts : tildeScan mem 4 5 1 1 = .ok (true, 2) := by
    simp [tildeScan, r1, h1]
  have ec : endCard mem 4 2 = .ok 4 := by
    simp [endCard, lineEnd, r2, r3, h2, h3, lf, cr]
  simp [parseCard, cardMode, parseText, h0, ts, ec]

/-- C18, negation: the deck of the two cards "~" and "A" comes back as a single blank card. -/
theorem C18_violated_tilde :
    ComesBackAs .text [lineCard [tilde], lineCard [65]] [lead []] ∧
    ¬ ComesBackAs .text [lineCard [tilde], lineCard [65]] [lineCard [tilde], lineCard [65]] := by
  have hb : ComesBackAs .text [lineCard [tilde], lineCard [65]] [lead []] := by
    have hf : savedFile .text [lineCard [tilde], lineCard [65]] = .ok [tilde, lf, 65, lf] := by
      apply savedFile_spec
      decide +kernel
    refine ⟨2, fun n hn junk => ?_⟩
    obtain ⟨n, rfl⟩ : ∃ k, n = k + 2 := ⟨n - 2, by omega⟩
    simp only [roundTrip, hf, Res.bind_ok]
    obtain ⟨c', -, e2, e3, e4, e5, e6, e7⟩ := readStep_ok (s := startRd (fresh .text) junk [tilde, lf, 65, lf]) (fresh_wf _)
      (img := blank) (o := some 4) (parse_tilde _ ⟨rfl, rfl, rfl, rfl⟩)
    have hr : readDeck (n + 2) junk (fresh .text) [tilde, lf, 65, lf] = .ok { c' with out := none } := by
      rw [readDeck_eq (c1 := fresh .text) rfl]
      simp only [readLoop, e7, Res.bind_ok]
      rfl
    have hc : c'.pos = 0 := e4
    have hh : Ctx.hopper { c' with out := none } = [lead []] := by
      show c'.hopper = _
      rw [hopper_zero hc, e3]; rfl
    simp only [loadedCards, hr, Res.bind_ok]
    exact drain_ok _ _ _ ⟨e2.cards, e2.pos⟩ hh (by decide) (by simp)
  exact ⟨hb, fun h2 => by have := congrArg List.length (comesBack_unique hb h2); simp at this⟩

/-! ### C19 octal format -/

theorem card_ok {m : Img} (h : Card m) : m.Ok := h

/-- C19. A non-empty deck saved in octal format comes back identical, provided no card has
exactly one punched column, column 1, other than the three control cards. -/
theorem C19_octal_round_trip_partial (deck : List Img) (hne : deck ≠ [])
    (h : ∀ m ∈ deck, Card m ∧ ¬ ∃ c, c ≠ 0 ∧ c ≠ 0o7 ∧ c ≠ 0o15 ∧ c ≠ 0o17 ∧ m = lead [c]) :
    ComesBackAs .octal deck deck := by
  have := comesBack (mode := .octal) deck id hne (fun m hm => (h m hm).1)
    (fun m hm => Parses_octal (Or.inr (Or.inl rfl)) m (h m hm).1 (by
      rintro ⟨c, h1, h2, h3, h4, h5⟩
      exact (h m hm).2 ⟨c, h1, h2, h3, h4, by rw [h5]; rfl⟩))
  simpa using this

example : Card (lead [0xfff, 0x123]) ∧ ¬ ∃ c, c ≠ 0 ∧ c ≠ 0o7 ∧ c ≠ 0o15 ∧ c ≠ 0o17 ∧ lead [0xfff, 0x123] = lead [c] := by
  refine ⟨⟨by decide, by decide⟩, ?_⟩
  rintro ⟨c, -, -, -, -, h⟩
  have := congrArg (fun l : List Nat => l[1]?) h
  simp [lead] at this

/-- C19, negation: every card punched in column 1 only (other than the control cards) comes back as
the 7/8/9 card. -/
theorem C19_violated_single_column (c : Nat) (hc : c < 4096) (h0 : c ≠ 0) (h1 : c ≠ 0o7) (h2 : c ≠ 0o15) (h3 : c ≠ 0o17) :
    ComesBackAs .octal [lead [c]] [lead [0o7]] ∧ ¬ ComesBackAs .octal [lead [c]] [lead [c]] := by
  have hb : ComesBackAs .octal [lead [c]] [lead [0o7]] := by
    have hcard : Card (lead [c]) := ⟨by simp [lead], by
      intro x hx
      simp only [lead, List.mem_append, List.mem_singleton, List.mem_replicate] at hx
      omega⟩
    exact comesBack (mode := .octal) [lead [c]] (fun _ => lead [0o7]) (by simp)
      (fun m _ => ⟨by decide, by decide⟩)
      (fun m hm => by
        rw [List.mem_singleton] at hm
        subst hm
        exact Parses_octalBad (Or.inr (Or.inl rfl)) (lead [c]) hcard ⟨c, h0, h1, h2, h3, rfl⟩)
  refine ⟨hb, fun hb2 => ?_⟩
  have := comesBack_unique hb hb2
  simp only [lead, List.cons_append, List.nil_append, List.cons.injEq, and_true] at this
  exact h1 this.1.symm

/-! ### C62 automatic format -/

theorem printable_col (x : Nat) (hx : x < 4096) (a : Nat) (h : holToAscii x = some a) (ha : a ≠ 0xff) :
    Printable a ∧ col029 a = x := by
  rcases holToAscii_spec x hx with ⟨c, c1, c2, c3, c4⟩ | ⟨c2, -⟩
  · rw [h] at c2; cases c2
    have key : ∀ a : Fin 128, (asciiToHol029Tab[a.val]?).getD 0xf000 &&& 0xf000 = 0 → 0x20 ≤ a.val ∧ a.val < 0x7f := by
      decide +kernel
    exact ⟨key ⟨a, c1⟩ (by simp [c3, c4]), by simp [col029, c3]⟩
  · rw [h] at c2; cases c2; exact absurd rfl ha

theorem asciiCols_all : ∀ (m : Img), (∀ x ∈ m, x < 4096) → ∃ o, asciiCols m = .ok o ∧ o.length = m.length ∧
    ((∀ a ∈ o, a ≠ 0xff) → (∀ a ∈ o, Printable a) ∧ m = o.map col029) := by
  intro m
  induction m with
  | nil => intro _; exact ⟨[], rfl, rfl, by simp⟩
  | cons x xs ih =>
    intro h
    obtain ⟨o, h1, h2, h3⟩ := ih (fun y hy => h y (by simp [hy]))
    obtain ⟨a, ha⟩ : ∃ a, holToAscii x = some a := by
      rcases holToAscii_spec x (h x (by simp)) with ⟨c, -, hc, -⟩ | ⟨hc, -⟩ <;> exact ⟨_, hc⟩
    refine ⟨a :: o, by simp [asciiCols, ha, look, h1], by simp [h2], ?_⟩
    intro hall
    obtain ⟨p1, p2⟩ := printable_col x (h x (by simp)) a ha (hall a (by simp))
    obtain ⟨q1, q2⟩ := h3 (fun b hb => hall b (by simp [hb]))
    refine ⟨?_, by simp [p2, ← q2]⟩
    intro b hb
    rcases List.mem_cons.mp hb with rfl | hb
    · exact p1
    · exact q1 b hb

/-- Whether a card shows a line of printable characters. -/
def IsText (m : Img) : Prop := ∃ s : List Nat, s.length = 80 ∧ (∀ c ∈ s, Printable c) ∧ m = cardOf s

theorem special_of_eq {s t : List Nat} (hs : ∀ c ∈ s, Printable c) (ht : ∀ c ∈ t, Printable c)
    (h : cardOf s = cardOf t) : s.map canon = t.map canon := by
  have key : ∀ s : List Nat, (∀ c ∈ s, Printable c) → (cardOf s).map holToAscii = (s.map canon).map some := by
    intro s hs
    simp only [cardOf, List.map_map]
    apply List.map_congr_left
    intro c hc
    exact (col029_facts c (hs c hc)).2.2.2.1
  have h2 := key s hs
  rw [h, key t ht] at h2
  exact ((List.map_inj_right (fun _ _ h => Option.some.inj h)).mp h2).symm

/-- C62. A non-empty deck saved and loaded in automatic format comes back identical if every card is
either a line of text that is no control line and is recognisably text (some character in an
odd column has a non-zero low hexadecimal digit), or is no text and no single-column card.
Missing: the remaining cards, for which the property fails. -/
theorem C62_auto_round_trip_partial (deck : List Img) (hne : deck ≠ [])
    (h : ∀ m ∈ deck, (∃ s : List Nat, s.length = 80 ∧ (∀ c ∈ s, Printable c) ∧ m = cardOf s ∧ ¬ Special s ∧ AutoSafe s) ∨
      (Card m ∧ ¬ IsText m ∧ ¬ ∃ c, c ≠ 0 ∧ c ≠ 0o7 ∧ c ≠ 0o15 ∧ c ≠ 0o17 ∧ m = lead [c])) :
    ComesBackAs .auto deck deck := by
  have := comesBack (mode := .auto) deck id hne
    (fun m hm => by
      rcases h m hm with ⟨s, s1, s2, s3, -⟩ | ⟨hc, -⟩
      · rw [s3]; exact cardOf_card s s1 s2
      · exact hc)
    (fun m hm => by
      rcases h m hm with ⟨s, s1, s2, s3, s4, s5⟩ | ⟨hc, h2, h3⟩
      · subst s3
        obtain ⟨b, b1, b2⟩ := Parses_text (mode := .auto) s s1 s2 s4 (Or.inr (Or.inr ⟨rfl, s5⟩))
        refine ⟨b, ?_, b2⟩
        have hall : (s.map canon).all (fun a => decide (a ≠ 0xff)) = true := by
          rw [List.all_eq_true]
          intro a ha
          obtain ⟨c, hc, rfl⟩ := List.mem_map.mp ha
          have := canon_printable (s2 c hc)
          unfold Printable at this
          simp; omega
        simp only [punchCard, cardOf, asciiCols_spec s s2, Res.bind_ok, hall, if_true]
        exact b1
      · obtain ⟨b, b1, b2⟩ := Parses_octal (mode := .auto) (Or.inr (Or.inr rfl)) m hc (by
          rintro ⟨c, g1, g2, g3, g4, g5⟩
          exact h3 ⟨c, g1, g2, g3, g4, by rw [g5]; rfl⟩)
        refine ⟨b, ?_, b2⟩
        obtain ⟨o, o1, o2, o3⟩ := asciiCols_all m hc.2
        have hall : ¬ (o.all (fun a => decide (a ≠ 0xff)) = true) := by
          rw [List.all_eq_true]
          intro hh
          obtain ⟨p1, p2⟩ := o3 (fun a ha => by simpa using hh a ha)
          exact h2 ⟨o, by rw [o2, hc.1], p1, p2⟩
        simp only [punchCard, o1, Res.bind_ok, hall, if_false]
        exact b1)
  simpa using this

/-- A line "A", a line "HELLO" meet the hypotheses. -/
example : let s := [72, 69, 76, 76, 79] ++ List.replicate 75 sp
    s.length = 80 ∧ (∀ c ∈ s, Printable c) ∧ ¬ Special s ∧ AutoSafe s := by
  refine ⟨by decide, ?_, ?_, ⟨0, 72, by decide, by decide⟩⟩
  · unfold Printable; decide
  · intro h; have := h.1; revert this; decide

/-- A card full of punches is not text. -/
example : Card (List.replicate 80 0xfff) ∧ ¬ IsText (List.replicate 80 0xfff) := by
  refine ⟨⟨by decide, by decide⟩, ?_⟩
  rintro ⟨s, s1, s2, s3⟩
  cases s with
  | nil => simp at s1
  | cons c s =>
    have hc := s2 c (by simp)
    have : col029 c = 0xfff := by
      simp only [cardOf, List.map_cons] at s3
      have := congrArg List.head? s3
      simpa using this.symm
    have key : ∀ c : Fin 0x7f, 0x20 ≤ c.val → col029 c ≠ 0xfff := by decide +kernel
    exact key ⟨c, hc.2⟩ hc.1 this

end Verif.Card
