import Verif.Card.Props
/- Properties C20-C24, C62-C64: the hopper as a queue, loading arbitrary files. -/
namespace Verif.Card

/-! ### Binary cards in automatic mode -/

theorem autoScan_bin {mem len} (hl : 160 ≤ len) : ∀ (img : Img) (n i t : Nat), (∀ c ∈ img, c < 4096) → img.length ≤ n →
    i + 2 * img.length = 160 → At mem i (punchBin img) → t &&& 0xf = 0 →
    ∃ t', autoScan mem len n i t = .ok (160, t') ∧ t' &&& 0xf = 0 := by
  intro img
  induction img with
  | nil =>
    intro n i t _ _ hi _ ht
    simp only [List.length_nil] at hi
    have : i = 160 := by omega
    subst this
    cases n with
    | zero => exact ⟨t, rfl, ht⟩
    | succ n => exact ⟨t, by simp [autoScan], ht⟩
  | cons c cs ih =>
    intro n i t hc hn hi ha ht
    obtain ⟨n, rfl⟩ : ∃ k, n = k + 1 := ⟨n - 1, by simp at hn; omega⟩
    simp only [List.length_cons] at hn hi
    simp only [punchBin, List.flatMap_cons, List.cons_append, List.nil_append, At_cons] at ha
    obtain ⟨a1, a2, a3⟩ := ha
    obtain ⟨t', h1, h2⟩ := ih n (i + 2) (t ||| mem i) (fun x hx => hc x (by simp [hx])) (by omega) (by omega) a3
      (by rw [Nat.and_or_distrib_right, ht, a1, (bin_col c (hc c (by simp))).2]; rfl)
    refine ⟨t', ?_, h2⟩
    simp only [autoScan]
    rw [if_pos (by omega)]
    simp only [rdB_ok (mem := mem) (show i ≤ 8691 by omega), Res.bind_ok, h1]

theorem Parses_auto_bin (img : Img) (h : Card img) : Parses .auto img (punchBin img) := by
  have hl := punchBin_length img
  rw [h.1] at hl
  refine ⟨by omega, by omega, ?_⟩
  intro mem len h1 h2 h3
  have ha := At_of_getElem (mem := mem) (b := punchBin img) (i := 0) (by simpa using h3)
  have hb := parseBin_spec (mem := mem) (len := len) img h (by omega) ha
  obtain ⟨t', g1, g2⟩ := autoScan_bin (mem := mem) (len := len) (by omega) img 81 0 0 h.2 (by rw [h.1]; omega) (by rw [h.1]) ha rfl
  simp only [parseCard, cardMode, g1, Res.bind_ok, g2, hb, hl, and_self, if_true]

theorem loads_of_parses {mode : Mode} (D : List (Img × List Nat)) (hD : D ≠ []) (hp : ∀ x ∈ D, Parses mode x.1 x.2)
    (hc : ∀ x ∈ D, Card x.1) : LoadsAs mode (D.flatMap Prod.snd) (D.map Prod.fst) := by
  refine ⟨D.length + 1, fun n hn junk => ?_⟩
  obtain ⟨c', r1, r2, r3, r4, r5, r6⟩ := readDeck_deck D n junk (fresh mode) hD (by omega) hp (fresh_wf mode) rfl
  have hh : c'.hopper = D.map Prod.fst := by rw [r3]; simp [fresh, Ctx.hopper, Ctx.content]
  have hd := drain_ok (D.map Prod.fst) c' n r2 hh (by
    intro m hm
    obtain ⟨x, hx, rfl⟩ := List.mem_map.mp hm
    exact (hc x hx).2) (by simp; omega)
  simp only [loadedCards, r1, Res.bind_ok, hd]

theorem loadsAs_unique {mode file d1 d2} (h1 : LoadsAs mode file d1) (h2 : LoadsAs mode file d2) : d1 = d2 := by
  obtain ⟨n1, h1⟩ := h1
  obtain ⟨n2, h2⟩ := h2
  have a := h1 (max n1 n2) (by omega) (fun _ => 0)
  have b := h2 (max n1 n2) (by omega) (fun _ => 0)
  rw [a] at b
  simpa using b

theorem comesBack_of_loads {mode deck file d} (hs : savedFile mode deck = .ok file) (h : LoadsAs mode file d) : ComesBackAs mode deck d := by
  obtain ⟨n0, h⟩ := h
  exact ⟨n0, fun n hn junk => by simp only [roundTrip, hs, Res.bind_ok, h n hn junk]⟩

/-- C64. The file of a deck saved in binary format is recognised and loads identically in automatic
format (the empty deck excepted, see C16). -/
theorem C64_binary_recognised_partial (deck : List Img) (hne : deck ≠ []) (h : ∀ m ∈ deck, Card m) :
    ∃ file, savedFile .bin deck = .ok file ∧ LoadsAs .auto file deck := by
  have key : ∀ d : List Img, punchAll .bin d = .ok ((d.map fun m => (m, punchBin m)).flatMap Prod.snd) := by
    intro d
    induction d with
    | nil => rfl
    | cons m ms ih => simp [punchAll, ih, punchCard]
  refine ⟨_, savedFile_spec .bin deck (key deck), ?_⟩
  have := loads_of_parses (mode := .auto) (deck.map fun m => (m, punchBin m)) (by simpa using hne)
    (fun x hx => by obtain ⟨m, hm, rfl⟩ := List.mem_map.mp hx; exact Parses_auto_bin m (h m hm))
    (fun x hx => by obtain ⟨m, hm, rfl⟩ := List.mem_map.mp hx; exact h m hm)
  simpa [List.map_map, Function.comp_def] using this

/-- C62, negation: eighty blank cards saved in automatic format come back as one card with the same
code 0xa2 in every column. -/
theorem C62_violated_blank_cards :
    ComesBackAs .auto (List.replicate 80 (lead [])) [List.replicate 80 0xa2] ∧
    ¬ ComesBackAs .auto (List.replicate 80 (lead [])) (List.replicate 80 (lead [])) := by
  have h1 : ∀ k : Nat, punchAll .auto (List.replicate k (lead [])) = .ok (List.flatten (List.replicate k [sp, lf])) := by
    intro k
    induction k with
    | zero => rfl
    | succ k ih =>
      have hc : punchCard .auto (lead []) = .ok [sp, lf] := by decide +kernel
      simp [List.replicate_succ, punchAll, hc, ih]
  have hb : ComesBackAs .auto (List.replicate 80 (lead [])) [List.replicate 80 0xa2] := by
    have hs := savedFile_spec .auto (List.replicate 80 (lead [])) (h1 80)
    have hf : List.flatten (List.replicate 80 [sp, lf]) = punchBin (List.replicate 80 0xa2) := by decide +kernel
    rw [hf] at hs
    apply comesBack_of_loads hs
    have := loads_of_parses (mode := .auto) [(List.replicate 80 0xa2, punchBin (List.replicate 80 0xa2))] (by simp)
      (by
        intro x hx
        rw [List.mem_singleton] at hx
        subst hx
        exact Parses_auto_bin _ ⟨by decide, by decide⟩)
      (by
        intro x hx
        rw [List.mem_singleton] at hx
        subst hx
        exact ⟨by decide, by decide⟩)
    rw [List.flatMap_cons, List.flatMap_nil, List.append_nil] at this
    exact this
  refine ⟨hb, fun h2 => ?_⟩
  have := congrArg List.length (comesBack_unique hb h2)
  rw [List.length_replicate] at this
  simp at this

/-! ### C20 the hopper is a queue -/

/-- The state of the library agrees with queue `q` and the open flag. -/
structure Agree (mode : Mode) (c : Ctx) (q : List Img) (opened : Bool) : Prop where
  wf    : Wf c
  mode  : c.mode = mode
  hop   : c.hopper = q
  cards : ∀ m ∈ q, Card m
  out   : c.out.isSome = opened

theorem blankDeck_spec {c : Ctx} (h : Wf c) (n : Nat) : ∃ c', blankDeck c n = .ok c' ∧ Wf c' ∧
    c'.hopper = c.hopper ++ List.replicate n blank ∧ c'.mode = c.mode ∧ c'.out = c.out := by
  obtain ⟨c1, m1, m2, m3, m4, m5, m6⟩ := moveDown_spec h
  obtain ⟨c2, b1, b2, b3, b4, b5, b6⟩ := blankLoop_spec n c1 m2
  refine ⟨c2, by simp [blankDeck, m1, b1], b2, ?_, by rw [b5, m5], by rw [b6, m6]⟩
  rw [hopper_zero (by rw [b3, m3]), b4, m4]

theorem blank_card : Card blank := ⟨by decide, by decide⟩

/-- One call keeps the agreement and shows what the queue says. -/
theorem agree_step {mode : Mode} {cardsOf : List Nat → List Img} {c : Ctx} {q : List Img} {b : Bool} {o : Op}
    (hcards : ∀ f, o = .load f → ∀ m ∈ cardsOf f, m.length = 80)
    (h : Agree mode c q b) (hpre : OpPre mode cardsOf b o) : ∃ n0, ∀ n, n0 ≤ n → ∀ junk, ∃ c',
      opStep n junk c o = .ok (c', (specOp cardsOf q b o).2.2) ∧
      Agree mode c' (specOp cardsOf q b o).1 (specOp cardsOf q b o).2.1 := by
  obtain ⟨hw, hm, hq, hc, ho⟩ := h
  cases o with
  | load f =>
    obtain ⟨n0, hl⟩ := hpre
    refine ⟨n0, fun n hn junk => ?_⟩
    have hld := hl n hn junk
    unfold loadedCards at hld
    cases hr : readDeck n junk (fresh mode) f with
    | oob => simp [hr] at hld
    | fuel => simp [hr] at hld
    | ok c0 =>
      simp only [hr, Res.bind_ok] at hld
      have hw0 : Wf c0 := by
        obtain ⟨c', e1, e2, -⟩ := readDeck_same (c := fresh mode) (fresh_wf mode) hr
        have e1' : readDeck n junk (fresh mode) f = .ok c' := e1
        rw [hr] at e1'; cases e1'; exact e2
      obtain ⟨d1, d2⟩ := drain_inv n c0 _ hw0 hld
      obtain ⟨c', e1, e2, e3, e4, e5⟩ := readDeck_same (c := c) hw (n := n) (junk := junk) (file := f) (c0 := c0) (by rw [hm]; exact hr)
      refine ⟨c', by simp [opStep, e1, specOp], e2, by rw [e3, hm], by rw [e4, hq, d1]; rfl, ?_, by rw [e5]; rfl⟩
      intro m hm'
      simp only [specOp, List.mem_append] at hm'
      rcases hm' with hm' | hm'
      · exact hc m hm'
      · exact ⟨hcards f rfl m hm', d2 m hm'⟩
  | blanks k =>
    refine ⟨0, fun n _ junk => ?_⟩
    obtain ⟨c', e1, e2, e3, e4, e5⟩ := blankDeck_spec hw k
    refine ⟨c', by simp [opStep, e1, specOp], e2, by rw [e4, hm], by rw [e3, hq]; rfl, ?_, by rw [e5]; exact ho⟩
    intro m hm'
    simp only [specOp, List.mem_append, List.mem_replicate] at hm'
    rcases hm' with hm' | ⟨-, rfl⟩
    · exact hc m hm'
    · exact blank_card
  | stack m =>
    refine ⟨0, fun n _ junk => ?_⟩
    cases hb : c.out with
    | none =>
      rw [hb] at ho
      simp only [Option.isSome_none] at ho
      subst ho
      obtain ⟨c', e1, e2, e3, e4, e5, -⟩ := stackCard_closed hw hb m
      refine ⟨c', by simp [opStep, e1, specOp], e2, by rw [e4, hm], by rw [e3, hq]; rfl, ?_, by rw [e5]; rfl⟩
      intro m' hm'
      simp only [specOp, Bool.false_eq_true, if_false, List.mem_append, List.mem_singleton] at hm'
      rcases hm' with hm' | rfl
      · exact hc m' hm'
      · exact hpre
    | some f =>
      rw [hb] at ho
      simp only [Option.isSome_some] at ho
      subst ho
      obtain ⟨bs, hbs⟩ := punchAll_ok c.mode (c.hopper ++ [m]) (by
        intro m' hm'
        rw [hq] at hm'
        simp only [List.mem_append, List.mem_singleton] at hm'
        rcases hm' with hm' | rfl
        · exact hc m' hm'
        · exact hpre)
      obtain ⟨c', e1, e2, e3, e4, e5, -⟩ := stackCard_open hw hb m hbs
      exact ⟨c', by simp [opStep, e1, specOp], e2, by rw [e4, hm], by rw [e3]; rfl, by simp [specOp], by rw [e5]; rfl⟩
  | read =>
    refine ⟨0, fun n _ junk => ?_⟩
    cases q with
    | nil =>
      exact ⟨c, by simp [opStep, readCard_nil hw hq, specOp], hw, hm, hq, by simp [specOp], ho⟩
    | cons m q =>
      obtain ⟨c', e1, e2, e3, e4, e5⟩ := readCard_cons hw hq (hc m (by simp)).2
      exact ⟨c', by simp [opStep, e1, specOp], e2, by rw [e4, hm], e3, fun x hx => hc x (by simp [specOp] at hx; simp [hx]), by rw [e5]; exact ho⟩
  | size =>
    refine ⟨0, fun n _ junk => ⟨c, ?_, hw, hm, hq, hc, ho⟩⟩
    simp [opStep, specOp, hopperSize, ← hq, hopper_length hw]
  | save =>
    refine ⟨0, fun n _ junk => ?_⟩
    obtain ⟨bs, hbs⟩ := punchAll_ok c.mode c.hopper (by rw [hq]; exact hc)
    obtain ⟨c', e1, e2, e3, e4, e5⟩ := saveDeck_spec hw hbs
    exact ⟨c', by simp [opStep, e1, specOp], e2, by rw [e4, hm], by rw [e3]; rfl, by simp [specOp], by rw [e5]; rfl⟩
  | close =>
    exact ⟨0, fun n _ junk => ⟨closeDeck c, rfl, ⟨hw.cards, hw.pos⟩, hm, hq, hc, rfl⟩⟩
  | empty =>
    refine ⟨0, fun n _ junk => ?_⟩
    have hb : b = false := hpre
    have hout : c.out = none := by
      rw [hb] at ho
      cases h : c.out with
      | none => rfl
      | some f => rw [h] at ho; cases ho
    refine ⟨{ (if c.images.length > deckSize then { c with images := List.replicate deckSize blank } else c) with pos := 0, cards := 0 }, ?_, ⟨by simp, by simp⟩, ?_, ?_, ?_, ?_⟩
    · simp only [opStep, emptyCards, hout, Res.bind_ok, specOp]
    · split <;> exact hm
    · simp [Ctx.hopper, Ctx.content, specOp]
    · simp [specOp]
    · split <;> exact ho

/-- C20. In every history of loads, blank decks, stackings, reads, saves and so on, starting from a
new context, each call shows exactly what a first-in first-out queue of cards would: each card
comes out once and in order, and an empty hopper is reported as such. -/
theorem C20_hopper_is_fifo (mode : Mode) (cardsOf : List Nat → List Img) (hist : List Op)
    (hlen : ∀ f m, m ∈ cardsOf f → m.length = 80) (hpre : OpsPre mode cardsOf [] false hist) :
    ∃ n0, ∀ n, n0 ≤ n → ∀ junk, opRun n junk (fresh mode) hist = .ok (specOps cardsOf [] false hist) := by
  have gen : ∀ (hist : List Op) (q : List Img) (b : Bool), OpsPre mode cardsOf q b hist →
      ∃ n0, ∀ c, Agree mode c q b → ∀ n, n0 ≤ n → ∀ junk, opRun n junk c hist = .ok (specOps cardsOf q b hist) := by
    intro hist
    induction hist with
    | nil => intro q b _; exact ⟨0, fun c _ n _ junk => rfl⟩
    | cons o os ih =>
      intro q b hp
      obtain ⟨n1, h1⟩ := ih _ _ hp.2
      -- the bound of one step does not depend on the state
      have hn2 : ∃ n2, ∀ c, Agree mode c q b → ∀ n, n2 ≤ n → ∀ junk, ∃ c',
          opStep n junk c o = .ok (c', (specOp cardsOf q b o).2.2) ∧
          Agree mode c' (specOp cardsOf q b o).1 (specOp cardsOf q b o).2.1 := by
        by_cases hload : ∃ f, o = .load f
        · obtain ⟨f, rfl⟩ := hload
          obtain ⟨n0, hl⟩ := hp.1
          refine ⟨n0, fun c hc n hn junk => ?_⟩
          have hpre' : OpPre mode cardsOf b (.load f) := ⟨n0, hl⟩
          -- instantiate the step with the constant bound
          have hld := hl n hn junk
          unfold loadedCards at hld
          cases hr : readDeck n junk (fresh mode) f with
          | oob => simp [hr] at hld
          | fuel => simp [hr] at hld
          | ok c0 =>
            simp only [hr, Res.bind_ok] at hld
            obtain ⟨hw, hm, hq, hcd, ho⟩ := hc
            have hw0 : Wf c0 := by
              obtain ⟨c', e1, e2, -⟩ := readDeck_same (c := fresh mode) (fresh_wf mode) hr
              have e1' : readDeck n junk (fresh mode) f = .ok c' := e1
              rw [hr] at e1'; cases e1'; exact e2
            obtain ⟨d1, d2⟩ := drain_inv n c0 _ hw0 hld
            obtain ⟨c', e1, e2, e3, e4, e5⟩ := readDeck_same (c := c) hw (n := n) (junk := junk) (file := f) (c0 := c0) (by rw [hm]; exact hr)
            refine ⟨c', by simp [opStep, e1, specOp], e2, by rw [e3, hm], by rw [e4, hq, d1]; rfl, ?_, by rw [e5]; rfl⟩
            intro m hm'
            simp only [specOp, List.mem_append] at hm'
            rcases hm' with hm' | hm'
            · exact hcd m hm'
            · exact ⟨hlen f m hm', d2 m hm'⟩
        · refine ⟨0, fun c hc n _ junk => ?_⟩
          obtain ⟨n0, h0⟩ := agree_step (fun f hf => absurd ⟨f, hf⟩ hload) hc hp.1
          obtain ⟨c', e1, e2⟩ := h0 (max n n0) (by omega) junk
          refine ⟨c', ?_, e2⟩
          rw [← e1]
          cases o <;> first | rfl | exact absurd ⟨_, rfl⟩ hload
      obtain ⟨n2, h2⟩ := hn2
      refine ⟨max n1 n2, fun c hc n hn junk => ?_⟩
      obtain ⟨c', e1, e2⟩ := h2 c hc n (by omega) junk
      simp only [opRun, e1, Res.bind_ok, h1 c' e2 n (by omega) junk, specOps]
  obtain ⟨n0, h⟩ := gen hist [] false hpre
  exact ⟨n0, fun n hn junk => h (fresh mode) ⟨fresh_wf mode, rfl, rfl, by simp, rfl⟩ n hn junk⟩

/-- A history with a load between reads meets the hypotheses. -/
example : let file := punchBin (lead [5])
    OpsPre .bin (fun _ => [lead [5]]) [] false
      [.stack (lead [3]), .blanks 2, .read, .load file, .read, .read, .read, .read, .size, .save, .close] := by
  have hload : LoadsAs .bin (punchBin (lead [5])) [lead [5]] := by
    have := loads_of_parses (mode := .bin) [(lead [5], punchBin (lead [5]))] (by simp)
      (by intro x hx; rw [List.mem_singleton] at hx; subst hx; exact Parses_bin _ ⟨by decide, by decide⟩)
      (by intro x hx; rw [List.mem_singleton] at hx; subst hx; exact ⟨by decide, by decide⟩)
    rw [List.flatMap_cons, List.flatMap_nil, List.append_nil] at this
    exact this
  refine ⟨⟨by decide, by decide⟩, trivial, trivial, hload, trivial, trivial, trivial, trivial, trivial, trivial, trivial, trivial⟩

/-- What the specification says of that history. -/
example : let file := punchBin (lead [5])
    specOps (fun _ => [lead [5]]) [] false [.stack (lead [3]), .blanks 1, .read, .load file, .read, .read, .read] =
      [none, none, some (.card (some (lead [3]))), none, some (.card (some (lead []))), some (.card (some (lead [5]))),
        some (.card none)] := by decide

/-- The storage grows in steps of 1000. -/
theorem blankLoop_storage : ∀ (k : Nat) (c : Ctx), c.images.length = 1000 → c.cards + k ≤ 1000 → ∃ d, blankLoop k c = .ok d ∧
    d.images.length = 1000 ∧ d.cards = c.cards + k ∧ d.pos = c.pos ∧ d.out = c.out := by
  intro k
  induction k with
  | zero => intro c h _; exact ⟨c, rfl, h, rfl, rfl, rfl⟩
  | succ k ih =>
    intro c h hk
    have hg : grow c = c := by unfold grow; rw [if_neg (by omega)]
    obtain ⟨d, d1, d2, d3, d4, d5⟩ := ih { c with images := c.images.set c.cards blank, cards := c.cards + 1 }
      (by simpa using h) (by simp; omega)
    refine ⟨d, ?_, d2, by rw [d3]; simp; omega, d4, d5⟩
    simp only [blankLoop, hg, setImg]
    rw [if_pos (by omega)]
    simp [d1]

theorem blankDeck_storage (n : Nat) (h0 : 0 < n) (h : n ≤ 1000) (f : List Nat) :
    ∃ d, blankDeck { fresh .bin with out := some f } n = .ok d ∧ d.images.length = 1000 ∧ d.cards = n ∧ d.pos = 0 ∧ d.out = some f := by
  obtain ⟨k, rfl⟩ : ∃ k, n = k + 1 := ⟨n - 1, by omega⟩
  have hg : grow { fresh .bin with out := some f } = { fresh .bin with out := some f, images := List.replicate deckSize blank } := by
    simp [grow, fresh]
  obtain ⟨d, d1, d2, d3, d4, d5⟩ := blankLoop_storage k
    { fresh .bin with out := some f, images := (List.replicate deckSize blank).set 0 blank, cards := 0 + 1 }
    (by rw [List.length_set, List.length_replicate]; decide) (by simp; omega)
  refine ⟨d, ?_, d2, by rw [d3]; simp; omega, d4, d5⟩
  have hm : moveDown { fresh .bin with out := some f } = .ok { fresh .bin with out := some f } := by simp [moveDown, fresh]
  simp only [blankDeck, hm, Res.bind_ok, blankLoop, hg, setImg]
  rw [if_pos (by rw [List.length_replicate]; decide)]
  simp only [Res.bind_ok]
  exact d1

/-- C20, the excluded call: emptying the hopper while an output file is open can read past the card
storage.  Witness: 1000 blank cards added after a save. -/
theorem C20_violated_empty_with_file (junk : Nat → Nat) :
    opRun 1 junk (fresh .bin) [.save, .blanks 1000, .empty] = .oob := by
  have h1 : saveDeck (fresh .bin) = .ok { fresh .bin with out := some [] } := rfl
  have h1000 : ∃ N : Nat, N = 1000 := ⟨_, rfl⟩
  obtain ⟨N, hN⟩ := h1000
  rw [← hN]
  obtain ⟨d, d1, d2, d3, d4, d5⟩ := blankDeck_storage N (by omega) (by omega) []
  have hempty : emptyCards d = .oob := by
    unfold emptyCards
    rw [d5]
    simp only [emptyLoop]
    rw [if_pos (by omega)]
    have : ¬ d.cards < d.images.length := by omega
    simp [getImg, this]
  simp only [opRun, opStep, h1, Res.bind_ok, d1, hempty, Res.bind_oob]

/-! ### C21 stacker -/

/-- C21. Stacking any number of cards on a stacker with no output file, then reading it, gives the
cards that were there followed by the stacked ones; the count grows by their number. -/
theorem C21_stacker_keeps_all (c : Ctx) (hw : Wf c) (ho : c.out = none) (before deck : List Img)
    (hb : ∃ n, drain n c = .ok before) (hd : ∀ m ∈ deck, Card m) :
    ∃ c', stackAll c deck = .ok c' ∧ stackSize c' = stackSize c + deck.length ∧
      ∃ n0, ∀ n, n0 ≤ n → drain n c' = .ok (before ++ deck) := by
  obtain ⟨n, hb⟩ := hb
  obtain ⟨b1, b2⟩ := drain_inv n c before hw hb
  obtain ⟨c', e1, e2, e3, e4, e5, e6⟩ := stackAll_closed deck c hw ho
  refine ⟨c', e1, e6, (before ++ deck).length + 1, fun n hn => ?_⟩
  apply drain_ok _ c' n e2 (by rw [e3, b1]) _ (by omega)
  intro m hm
  rcases List.mem_append.mp hm with hm | hm
  · exact b2 m hm
  · exact (hd m hm).2

/-- C21, with an output file open: the file grows by the cards in order. -/
theorem C21_stacked_cards_are_written (mode : Mode) (deck : List Img) (hd : ∀ m ∈ deck, Card m) :
    ∃ c' file, (do let c ← saveDeck (fresh mode); stackAll c deck) = .ok c' ∧ c'.out = some file ∧
      savedFile mode deck = .ok file := by
  have gen : ∀ (ms : List Img) (c : Ctx) (f : List Nat), Wf c → c.out = some f → c.hopper = [] → (∀ m ∈ ms, Card m) →
      ∃ c' b, stackAll c ms = .ok c' ∧ punchAll c.mode ms = .ok b ∧ c'.out = some (f ++ b) := by
    intro ms
    induction ms with
    | nil => intro c f _ ho _ _; exact ⟨c, [], rfl, rfl, by simpa using ho⟩
    | cons m ms ih =>
      intro c f hw ho hh hc
      obtain ⟨b, hb⟩ := punchCard_ok c.mode m (hc m (by simp))
      obtain ⟨c1, e1, e2, e3, e4, e5, -⟩ := stackCard_open hw ho m (b := b) (by rw [hh]; simp [punchAll, hb])
      obtain ⟨c2, b2, f1, f2, f3⟩ := ih c1 (f ++ b) e2 e5 e3 (fun x hx => hc x (by simp [hx]))
      rw [e4] at f2
      exact ⟨c2, b ++ b2, by simp [stackAll, e1, f1], by simp [punchAll, hb, f2], by rw [f3]; simp⟩
  have hs : saveDeck (fresh mode) = .ok { fresh mode with out := some [] } := rfl
  obtain ⟨c', b, e1, e2, e3⟩ := gen deck { fresh mode with out := some [] } [] ⟨by simp [fresh], by simp [fresh]⟩ rfl rfl hd
  exact ⟨c', b, by rw [hs]; exact e1, by simpa using e3, savedFile_spec mode deck e2⟩

/-- A stacker with a card in it. -/
example : ∃ c n, Wf c ∧ c.out = none ∧ drain n c = .ok [lead [7]] := by
  obtain ⟨c', e1, e2, e3, e4, e5, e6⟩ := stackAll_closed [lead [7]] (fresh .text) (fresh_wf _) rfl
  exact ⟨c', 2, e2, e5, drain_ok _ c' 2 e2 (by rw [e3]; rfl) (by decide) (by simp)⟩

/-! ### C22 blank deck -/

/-- C22. Adding `n` blank cards to a hopper leaves the cards that were there followed by `n` blank
cards. -/
theorem C22_blank_deck (c : Ctx) (hw : Wf c) (before : List Img) (hb : ∃ k, drain k c = .ok before) (n : Nat) :
    ∃ c', blankDeck c n = .ok c' ∧ hopperSize c' = hopperSize c + n ∧
      ∃ n0, ∀ k, n0 ≤ k → drain k c' = .ok (before ++ List.replicate n (List.replicate 80 0)) := by
  obtain ⟨k, hb⟩ := hb
  obtain ⟨b1, b2⟩ := drain_inv k c before hw hb
  obtain ⟨c', e1, e2, e3, e4, e5⟩ := blankDeck_spec hw n
  refine ⟨c', e1, ?_, (before ++ List.replicate n blank).length + 1, fun k hk => ?_⟩
  · have h1 := hopper_length e2
    have h2 := hopper_length hw
    rw [e3, List.length_append, List.length_replicate] at h1
    simp only [hopperSize]; omega
  · apply drain_ok _ c' k e2 (by rw [e3, b1]; rfl) _ (by exact hk)
    intro m hm
    rcases List.mem_append.mp hm with hm | hm
    · exact b2 m hm
    · rw [List.mem_replicate] at hm
      rw [hm.2]
      exact blank_card.2

/-! ### C23 termination -/

/-- C23, negation: loading a file of 1 to 159 bytes in binary format never ends (until memory is
exhausted): no number of steps is enough. -/
theorem C23_violated_short_binary (file : List Nat) (h0 : file ≠ []) (hl : file.length < 160) (n : Nat) (junk : Nat → Nat) :
    readDeck n junk (fresh .bin) file = .fuel := by
  rw [readDeck_eq (c1 := fresh .bin) rfl]
  have hpos : 0 < file.length := by
    rw [Nat.pos_iff_ne_zero, ne_eq, List.length_eq_zero_iff]; exact h0
  have stuck : ∀ (n : Nat) (s : Rd), Wf s.ctx → s.ctx.mode = .bin → Inv s file → s.size = 0 → (s.len = 0 → s.eof = false) → readLoop n s = .fuel := by
    intro n
    induction n with
    | zero => intro s _ _ _ _ _; rfl
    | succ n ih =>
      intro s hw hm hi hz he
      obtain ⟨r1, r2, -, -⟩ := refill_spec hi
      have hlen : (refill s).len = file.length := by
        obtain ⟨b, b1, b2, b3⟩ := r1.buf
        have hle := r1.len_le
        rcases r2 with h | h
        · omega
        · rw [b2, h]; simpa using b1.symm
      have hp : parseCard s.ctx.mode (refill s).mem (refill s).len = .ok (blank.set 0 0xfff, none) := by
        rw [hm, hlen]
        simp only [parseCard, cardMode, Res.bind_ok, parseBin, if_pos hl]
      obtain ⟨c', -, e2, e3, e4, e5, e6, e7⟩ := readStep_ok hw hp
      have hl2 : ({ shift (refill s) (Option.getD none s.size) with ctx := c' } : Rd).len = file.length := by
        simp [shift, hz, hlen]
      simp only [readLoop, e7, Res.bind_ok]
      rw [if_pos (by rw [hl2]; exact hpos)]
      apply ih _ e2 (by rw [e5, hm])
      · have := shift_inv r1 0 (Nat.zero_le _) c'
        simpa [hz] using this
      · simp [shift, hz]
      · intro hz'
        rw [hl2] at hz'
        omega
  rw [stuck n (startRd (fresh .bin) junk file) (fresh_wf .bin) rfl (startRd_inv _ _ _) rfl (fun _ => rfl)]
  rfl

/-- C23. Loading ends, within as many steps as the file has bytes, for every file in text, octal and
EBCDIC format, in binary format for the empty file and files of at least 160 bytes, in automatic
format for files whose length is not 159.  Missing: the other lengths, where the property fails. -/
theorem C23_load_terminates_partial (mode : Mode) (file : List Nat) (hb : ∀ b ∈ file, b < 256)
    (hl : file = [] ∨ ((mode = .bin → 160 ≤ file.length) ∧ (mode = .auto → file.length ≠ 159))) (junk : Nat → Nat) (n : Nat)
    (hn : file.length < n) : readDeck n junk (fresh mode) file ≠ .fuel := by
  rcases readDeck_ends (n := n) (junk := junk) (c := fresh mode) (fresh_wf mode) hb hl hn with ⟨c', l, h, -⟩ | ⟨h, -⟩
  · rw [h]; simp
  · rw [h]; simp

example : (∀ b ∈ List.replicate 161 7, b < 256) ∧ ((List.replicate 161 7) = [] ∨
    ((Mode.bin = .bin → 160 ≤ (List.replicate 161 7).length) ∧ (Mode.bin = .auto → (List.replicate 161 7).length ≠ 159))) := by
  refine ⟨?_, Or.inr ⟨?_, ?_⟩⟩
  · intro b hb; rw [List.mem_replicate] at hb; omega
  · intro _; rw [List.length_replicate]; omega
  · intro h; cases h

/-! ### C24 bounds -/

/-- C24, negation: a byte above 127 in a text file is used as a negative table index. -/
theorem C24_violated_high_byte (b : Nat) (h1 : 128 ≤ b) (h2 : b < 256) (n : Nat) (junk : Nat → Nat) :
    readDeck (n + 1) junk (fresh .text) [b] = .oob := by
  rw [readDeck_eq (c1 := fresh .text) rfl]
  have hi := startRd_inv (fresh .text) junk [b]
  have hmem : (refill (startRd (fresh .text) junk [b])).mem 0 = b := rfl
  have hlen : (refill (startRd (fresh .text) junk [b])).len = 1 := rfl
  have hnone : textToHol b = none := by
    have : asciiToHol029Tab.length ≤ b := by rw [asciiToHol029Tab_len]; exact h1
    simp [textToHol, this]
  have hp : parseCard (startRd (fresh .text) junk [b]).ctx.mode (refill (startRd (fresh .text) junk [b])).mem
      (refill (startRd (fresh .text) junk [b])).len = .oob := by
    have hcc : ∀ x y z, cmpCard (refill (startRd (fresh .text) junk [b])).mem x y z = false := by
      intro x y z
      simp only [cmpCard, hmem]
      have : (b == tilde) = false := by simp [tilde]; omega
      rw [this]; rfl
    have ht : textLoop (refill (startRd (fresh .text) junk [b])).mem 1 (1 + 2) 0 0 blank = .oob := by
      simp only [textLoop, rdB_ok (mem := (refill (startRd (fresh .text) junk [b])).mem) (show 0 ≤ 8691 by omega), hmem, Res.bind_ok]
      rw [if_pos (by omega), if_neg (by unfold cr; omega), if_neg (by unfold tab; omega), if_neg (by unfold lf; omega), hnone]
      rfl
    have hbody : textBody (refill (startRd (fresh .text) junk [b])).mem 1 = .oob := by
      simp only [textBody, hcc, Bool.false_eq_true, if_false, ht]
    show parseCard .text (refill (startRd (fresh .text) junk [b])).mem _ = .oob
    rw [hlen]
    simp only [parseCard, cardMode, Res.bind_ok, parseText, hmem]
    rw [if_neg (by unfold tilde; omega)]
    simp only [hbody, Res.bind_oob, Res.bind_ok, Bool.false_eq_true, if_false]
  simp only [readLoop, (readStep_bad (fresh_wf .text) hp).1 rfl, Res.bind_oob]

/-- C24. Loading accesses no array out of bounds for 7-bit files in every format, and for all files
in binary and EBCDIC format.  For text files the last byte of the read buffer, which is never
written, must not happen to be a carriage return. -/
theorem C24_load_in_bounds_partial (mode : Mode) (file : List Nat) (hb : ∀ b ∈ file, b < 256)
    (h7 : mode = .bin ∨ mode = .ebcdic ∨ ∀ b ∈ file, b < 128) (junk : Nat → Nat) (hj : junk 8691 ≠ cr) (n : Nat) :
    readDeck n junk (fresh mode) file ≠ .oob := by
  have gen : ∀ (n : Nat) (s : Rd) (B : List Nat), Wf s.ctx → s.ctx.mode = mode → Inv s B → (∀ b ∈ B, b < 256) →
      (mode = .bin ∨ mode = .ebcdic ∨ ∀ b ∈ B, b < 128) → s.mem 8691 ≠ cr → readLoop n s ≠ .oob := by
    intro n
    induction n with
    | zero => intro s B _ _ _ _ _ _ h; cases h
    | succ n ih =>
      intro s B hw hm hi hb h7 hj
      rcases readStep_cases hw hi hb with ⟨s', img, h1, h2, h3, h4, h5, h6, h7', h8, h9⟩ | ⟨h1, h2⟩
      · simp only [readLoop, h1, Res.bind_ok]
        split
        · rename_i hpos
          obtain ⟨B', g1, g2, -⟩ := h9 hpos
          apply ih s' B' h2 (by rw [h3, hm]) g1 (fun b hb' => hb b (g2 b hb')) _ (by rw [h8]; exact hj)
          rcases h7 with h | h | h
          · exact Or.inl h
          · exact Or.inr (Or.inl h)
          · exact Or.inr (Or.inr fun b hb' => h b (g2 b hb'))
        · intro h; cases h
      · exfalso
        apply h2
        rw [hm]
        rcases h7 with h | h | h
        · rw [h]; trivial
        · rw [h]; trivial
        · have hs := (refill_spec hi).1.seven h
          have hl := refill_last s hi
          rw [← hl] at hj
          cases mode <;> first | trivial | exact ⟨hs, hj⟩
  rw [readDeck_eq (c1 := fresh mode) rfl]
  have := gen n (startRd (fresh mode) junk file) file (fresh_wf mode) rfl (startRd_inv _ _ _) hb h7 (by simpa [startRd] using hj)
  cases hr : readLoop n (startRd (fresh mode) junk file) with
  | ok c => simp
  | oob => exact absurd hr this
  | fuel => simp

end Verif.Card
