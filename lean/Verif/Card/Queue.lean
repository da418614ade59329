import Verif.Card.Load
/- Reading, punching and stacking in terms of the queue of cards left in the hopper. -/
namespace Verif.Card

theorem punchEbc_ok_iff : ∀ (m : Img), (∃ e, punchEbc m = .ok e) ↔ ∀ x ∈ m, x < 4096 := by
  intro m
  induction m with
  | nil => simp [punchEbc]
  | cons x xs ih =>
    cases h : holToEbcdic x with
    | none =>
      have := (C14_table_bound x).mp h
      simp only [punchEbc, h, look, Res.bind_oob, List.mem_cons, forall_eq_or_imp]
      constructor
      · rintro ⟨e, he⟩; cases he
      · intro hx; omega
    | some v =>
      have hx : x < 4096 := by
        apply Classical.byContradiction
        intro hn
        rw [(C14_table_bound x).mpr (by omega)] at h; cases h
      simp only [punchEbc, h, look, Res.bind_ok, List.mem_cons, forall_eq_or_imp, hx, true_and]
      rw [← ih]
      constructor
      · rintro ⟨e, he⟩
        cases hp : punchEbc xs with
        | ok r => exact ⟨r, rfl⟩
        | oob => simp [hp] at he
        | fuel => simp [hp] at he
      · rintro ⟨e, he⟩; exact ⟨_, by rw [he]; rfl⟩

theorem asciiCols_ok : ∀ (m : Img), (∀ x ∈ m, x < 4096) → ∃ o, asciiCols m = .ok o ∧ o.length = m.length := by
  intro m
  induction m with
  | nil => intro _; exact ⟨[], rfl, rfl⟩
  | cons x xs ih =>
    intro h
    obtain ⟨o, h1, h2⟩ := ih (fun y hy => h y (by simp [hy]))
    rcases holToAscii_spec x (h x (by simp)) with ⟨c, -, hc, -⟩ | ⟨hc, -⟩
    · exact ⟨c :: o, by simp [asciiCols, hc, look, h1], by simp [h2]⟩
    · exact ⟨0xff :: o, by simp [asciiCols, hc, look, h1], by simp [h2]⟩

theorem punchCard_ok (mode : Mode) (m : Img) (h : Card m) : ∃ b, punchCard mode m = .ok b := by
  obtain ⟨o, ho, -⟩ := asciiCols_ok m h.2
  have ht : ∃ b, punchText m = .ok b := by
    unfold punchText
    simp only [ho, Res.bind_ok]
    exact ⟨_, rfl⟩
  have hoct : ∃ b, punchOctal m = .ok b := by
    obtain ⟨v, hv⟩ := getCol_ok (img := m) (k := 0) (by rw [h.1]; omega)
    unfold punchOctal
    simp only [hv, Res.bind_ok]
    repeat' split
    all_goals exact ⟨_, rfl⟩
  cases mode with
  | auto =>
    simp only [punchCard, ho, Res.bind_ok]
    split
    · exact ht
    · exact hoct
  | text => exact ht
  | octal => exact hoct
  | bin => exact ⟨_, rfl⟩
  | ebcdic => exact (punchEbc_ok_iff m).mpr h.2

theorem hopper_nil {c : Ctx} (h : Wf c) : c.hopper = [] ↔ c.cards ≤ c.pos := by
  simp only [Ctx.hopper, List.drop_eq_nil_iff, h.content_length]

theorem hopper_length {c : Ctx} (h : Wf c) : c.hopper.length = c.cards - c.pos := by
  simp [Ctx.hopper, h.content_length]

theorem readCard_nil {c : Ctx} (h : Wf c) (hq : c.hopper = []) : readCard c = .ok (none, c) := by
  simp only [readCard]
  rw [if_pos ((hopper_nil h).mp hq)]

theorem readCard_cons {c : Ctx} (h : Wf c) {m : Img} {q : List Img} (hq : c.hopper = m :: q) (hm : ∀ x ∈ m, x < 4096) :
    ∃ c', readCard c = .ok (some m, c') ∧ Wf c' ∧ c'.hopper = q ∧ c'.mode = c.mode ∧ c'.out = c.out := by
  have hp : c.pos < c.cards := by
    apply Classical.byContradiction
    intro hn
    rw [(hopper_nil h).mpr (by omega)] at hq; cases hq
  obtain ⟨m', h1, h2⟩ := hopper_cons h hp
  rw [hq] at h2
  cases h2
  obtain ⟨e, he⟩ := (punchEbc_ok_iff m).mpr hm
  refine ⟨{ c with pos := c.pos + 1 }, ?_, ⟨h.cards, by simp; omega⟩, rfl, rfl, rfl⟩
  simp only [readCard]
  rw [if_neg (by omega)]
  simp [getImg, h1, he]

theorem drain_ok : ∀ (q : List Img) (c : Ctx) (n : Nat), Wf c → c.hopper = q → (∀ m ∈ q, ∀ x ∈ m, x < 4096) → q.length < n →
    drain n c = .ok q := by
  intro q
  induction q with
  | nil =>
    intro c n h hq _ hn
    obtain ⟨n, rfl⟩ : ∃ k, n = k + 1 := ⟨n - 1, by omega⟩
    simp [drain, readCard_nil h hq]
  | cons m q ih =>
    intro c n h hq hm hn
    obtain ⟨n, rfl⟩ : ∃ k, n = k + 1 := ⟨n - 1, by omega⟩
    obtain ⟨c', h1, h2, h3, -, -⟩ := readCard_cons h hq (hm m (by simp))
    simp [drain, h1, ih c' n h2 h3 (fun m' hm' => hm m' (by simp [hm'])) (by simpa using hn)]

/-- What draining tells about the hopper. -/
theorem drain_inv : ∀ (n : Nat) (c : Ctx) (l : List Img), Wf c → drain n c = .ok l → c.hopper = l ∧ ∀ m ∈ l, ∀ x ∈ m, x < 4096 := by
  intro n
  induction n with
  | zero => intro c l _ h; cases h
  | succ n ih =>
    intro c l hw h
    cases hq : c.hopper with
    | nil =>
      simp only [drain, readCard_nil hw hq, Res.bind_ok, Res.ok.injEq] at h
      subst h; simp
    | cons m q =>
      by_cases hm : ∀ x ∈ m, x < 4096
      · obtain ⟨c', h1, h2, h3, -, -⟩ := readCard_cons hw hq hm
        simp only [drain, h1, Res.bind_ok] at h
        cases hd : drain n c' with
        | ok ms =>
          simp only [hd, Res.bind_ok, Res.ok.injEq] at h
          obtain ⟨k1, k2⟩ := ih c' ms h2 hd
          subst h
          rw [h3] at k1
          rw [k1]
          refine ⟨rfl, ?_⟩
          intro m' hm'
          rcases List.mem_cons.mp hm' with rfl | hm'
          · exact hm
          · exact k2 m' hm'
        | oob => simp [hd] at h
        | fuel => simp [hd] at h
      · exfalso
        have hp : c.pos < c.cards := by
          apply Classical.byContradiction
          intro hn
          rw [(hopper_nil hw).mpr (by omega)] at hq; cases hq
        obtain ⟨m', h1, h2⟩ := hopper_cons hw hp
        rw [hq] at h2
        cases h2
        have hbad : ¬ ∃ e, punchEbc m = .ok e := by rw [punchEbc_ok_iff]; exact hm
        simp only [drain, readCard] at h
        rw [if_neg (by omega)] at h
        cases hp : punchEbc m with
        | ok e => exact hbad ⟨e, hp⟩
        | oob => simp [getImg, h1, hp] at h
        | fuel => simp [getImg, h1, hp] at h

/-- Bytes of a deck in a format. -/
def punchAll (mode : Mode) : List Img → Res (List Nat)
  | [] => .ok []
  | m :: ms => do
    let b ← punchCard mode m
    let r ← punchAll mode ms
    .ok (b ++ r)

theorem punchAll_ok (mode : Mode) : ∀ (q : List Img), (∀ m ∈ q, Card m) → ∃ b, punchAll mode q = .ok b := by
  intro q
  induction q with
  | nil => intro _; exact ⟨[], rfl⟩
  | cons m q ih =>
    intro h
    obtain ⟨b, hb⟩ := punchCard_ok mode m (h m (by simp))
    obtain ⟨r, hr⟩ := ih (fun x hx => h x (by simp [hx]))
    exact ⟨b ++ r, by simp [punchAll, hb, hr]⟩

theorem punchLoop_spec : ∀ (q : List Img) (c : Ctx) (n : Nat) (b : List Nat), Wf c → c.hopper = q → q.length < n →
    punchAll c.mode q = .ok b →
    ∃ c', punchLoop n c = .ok c' ∧ Wf c' ∧ c'.hopper = [] ∧ c'.mode = c.mode ∧ c'.out = c.out.map (· ++ b) ∧ c'.cards = c.cards := by
  intro q
  induction q with
  | nil =>
    intro c n b h hq hn hb
    obtain ⟨n, rfl⟩ : ∃ k, n = k + 1 := ⟨n - 1, by omega⟩
    have hc := (hopper_nil h).mp hq
    simp only [punchAll, Res.ok.injEq] at hb
    subst hb
    refine ⟨c, by simp only [punchLoop]; rw [if_neg (by omega)], h, hq, rfl, by cases c.out <;> simp, rfl⟩
  | cons m q ih =>
    intro c n b h hq hn hb
    obtain ⟨n, rfl⟩ : ∃ k, n = k + 1 := ⟨n - 1, by omega⟩
    have hp : c.pos < c.cards := by
      apply Classical.byContradiction
      intro hn
      rw [(hopper_nil h).mpr (by omega)] at hq; cases hq
    obtain ⟨m', h1, h2⟩ := hopper_cons h hp
    rw [hq] at h2
    cases h2
    simp only [punchAll] at hb
    cases hpc : punchCard c.mode m with
    | oob => simp [hpc] at hb
    | fuel => simp [hpc] at hb
    | ok b1 =>
      cases hpa : punchAll c.mode (Ctx.hopper { c with pos := c.pos + 1 }) with
      | oob => simp [hpc, hpa] at hb
      | fuel => simp [hpc, hpa] at hb
      | ok b2 =>
        simp only [hpc, hpa, Res.bind_ok, Res.ok.injEq] at hb
        subst hb
        obtain ⟨c', k1, k2, k3, k4, k5, k6⟩ := ih { c with pos := c.pos + 1, out := c.out.map (· ++ b1) } n b2
          ⟨h.cards, by simp; omega⟩ rfl (by simpa using hn) hpa
        refine ⟨c', ?_, k2, k3, k4, ?_, k6⟩
        · simp only [punchLoop]
          rw [if_pos hp]
          simp [getImg, h1, hpc, k1]
        · rw [k5]; cases c.out <;> simp

theorem stackCard_closed {c : Ctx} (h : Wf c) (ho : c.out = none) (m : Img) : ∃ c', stackCard c m = .ok c' ∧ Wf c' ∧
    c'.hopper = c.hopper ++ [m] ∧ c'.mode = c.mode ∧ c'.out = none ∧ c'.cards = c.cards + 1 := by
  obtain ⟨c', e1, e2, e3, e4, e5, e6, e7⟩ := push_spec h m
  have hst : stackCard c m = .ok c' := by
    unfold push at e1
    unfold stackCard
    cases hs : setImg (grow c) (grow c).cards m with
    | ok c1 =>
      simp only [hs, Res.bind_ok, Res.ok.injEq] at e1
      have h1 : c1.out = none := by rw [← ho, ← e7, ← e1]
      subst e1
      simp only [hs, Res.bind_ok, h1]
    | oob => simp [hs] at e1
    | fuel => simp [hs] at e1
  refine ⟨c', hst, e2, ?_, e6, by rw [e7, ho], e5⟩
  simp only [Ctx.hopper, e3, e4]
  rw [List.drop_append_of_le_length (by rw [h.content_length]; exact h.pos)]

theorem stackCard_open {c : Ctx} (h : Wf c) {f : List Nat} (ho : c.out = some f) (m : Img) {b : List Nat}
    (hb : punchAll c.mode (c.hopper ++ [m]) = .ok b) : ∃ c', stackCard c m = .ok c' ∧ Wf c' ∧
    c'.hopper = [] ∧ c'.mode = c.mode ∧ c'.out = some (f ++ b) ∧ c'.cards = c.cards + 1 := by
  obtain ⟨c', e1, e2, e3, e4, e5, e6, e7⟩ := push_spec h m
  have hh : c'.hopper = c.hopper ++ [m] := by
    simp only [Ctx.hopper, e3, e4]
    rw [List.drop_append_of_le_length (by rw [h.content_length]; exact h.pos)]
  have hst : stackCard c m = punchLoop (c'.cards + 1) c' := by
    unfold push at e1
    unfold stackCard
    cases hs : setImg (grow c) (grow c).cards m with
    | ok c1 =>
      simp only [hs, Res.bind_ok, Res.ok.injEq] at e1
      have h1 : c1.out = some f := by rw [← ho, ← e7, ← e1]
      subst e1
      simp only [hs, Res.bind_ok, h1]
    | oob => simp [hs] at e1
    | fuel => simp [hs] at e1
  obtain ⟨c2, k1, k2, k3, k4, k5, k6⟩ := punchLoop_spec _ c' (c'.cards + 1) b e2 hh (by
    rw [← hh, hopper_length e2]; omega) (by rw [e6]; exact hb)
  exact ⟨c2, by rw [hst, k1], k2, k3, by rw [k4, e6], by rw [k5, e7, ho]; rfl, by rw [k6, e5]⟩

theorem saveDeck_spec {c : Ctx} (h : Wf c) {b : List Nat} (hb : punchAll c.mode c.hopper = .ok b) : ∃ c', saveDeck c = .ok c' ∧ Wf c' ∧
    c'.hopper = [] ∧ c'.mode = c.mode ∧ c'.out = some b := by
  obtain ⟨c2, k1, k2, k3, k4, k5, -⟩ := punchLoop_spec c.hopper { c with out := some [] } (c.cards + 1) b ⟨h.cards, h.pos⟩ rfl
    (by rw [hopper_length h]; omega) hb
  exact ⟨c2, k1, k2, k3, k4, by simpa using k5⟩

theorem stackAll_closed : ∀ (ms : List Img) (c : Ctx), Wf c → c.out = none → ∃ c', stackAll c ms = .ok c' ∧ Wf c' ∧
    c'.hopper = c.hopper ++ ms ∧ c'.mode = c.mode ∧ c'.out = none ∧ c'.cards = c.cards + ms.length := by
  intro ms
  induction ms with
  | nil => intro c h ho; exact ⟨c, rfl, h, by simp, rfl, ho, rfl⟩
  | cons m ms ih =>
    intro c h ho
    obtain ⟨c1, a1, a2, a3, a4, a5, a6⟩ := stackCard_closed h ho m
    obtain ⟨c2, b1, b2, b3, b4, b5, b6⟩ := ih c1 a2 a5
    exact ⟨c2, by simp [stackAll, a1, b1], b2, by rw [b3, a3]; simp, by rw [b4, a4], b5, by rw [b6, a6]; simp; omega⟩

theorem savedFile_spec (mode : Mode) (deck : List Img) {b : List Nat} (hb : punchAll mode deck = .ok b) : savedFile mode deck = .ok b := by
  obtain ⟨c1, a1, a2, a3, a4, a5, -⟩ := stackAll_closed deck (fresh mode) (fresh_wf mode) rfl
  have hh : c1.hopper = deck := by rw [a3]; simp [fresh, Ctx.hopper, Ctx.content]
  obtain ⟨c2, b1, b2, b3, b4, b5⟩ := saveDeck_spec (c := c1) a2 (b := b) (by rw [hh, a4]; exact hb)
  simp [savedFile, a1, b1, b5]

/-- A deck whose cards punch to byte strings that parse as `f` of them comes back as its image under `f`. -/
theorem comesBack {mode : Mode} (deck : List Img) (f : Img → Img) (hne : deck ≠ []) (hf : ∀ m ∈ deck, Card (f m))
    (hp : ∀ m ∈ deck, ∃ b, punchCard mode m = .ok b ∧ Parses mode (f m) b) : ComesBackAs mode deck (deck.map f) := by
  have key : ∀ deck : List Img, (∀ m ∈ deck, ∃ b, punchCard mode m = .ok b ∧ Parses mode (f m) b) →
      ∃ D : List (Img × List Nat), D.map Prod.fst = deck.map f ∧ (∀ x ∈ D, Parses mode x.1 x.2) ∧
        punchAll mode deck = .ok (D.flatMap Prod.snd) := by
    intro deck
    induction deck with
    | nil => intro _; exact ⟨[], rfl, by simp, rfl⟩
    | cons m ms ih =>
      intro hp
      obtain ⟨D, d1, d2, d3⟩ := ih (fun x hx => hp x (by simp [hx]))
      obtain ⟨b, b1, b2⟩ := hp m (by simp)
      refine ⟨(f m, b) :: D, by simp [d1], ?_, by simp [punchAll, b1, d3]⟩
      intro x hx
      rcases List.mem_cons.mp hx with rfl | hx
      · exact b2
      · exact d2 x hx
  obtain ⟨D, d1, d2, d3⟩ := key deck hp
  have hl : D.length = deck.length := by simpa using congrArg List.length d1
  refine ⟨deck.length + 1, fun n hn junk => ?_⟩
  have hD : D ≠ [] := by
    intro h
    rw [h] at hl
    exact hne (List.length_eq_zero_iff.mp hl.symm)
  obtain ⟨c', r1, r2, r3, r4, r5, r6⟩ := readDeck_deck D n junk (fresh mode) hD (by omega) d2 (fresh_wf mode) rfl
  have hh : c'.hopper = deck.map f := by rw [r3, d1]; simp [fresh, Ctx.hopper, Ctx.content]
  have hd := drain_ok (deck.map f) c' n r2 hh (by
    intro m hm
    obtain ⟨x, hx, rfl⟩ := List.mem_map.mp hm
    exact (hf x hx).2) (by simp; omega)
  simp only [roundTrip, savedFile_spec mode deck d3, Res.bind_ok, loadedCards, r1, hd]

end Verif.Card
