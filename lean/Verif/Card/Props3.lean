import Verif.Card.Props2
/- C63: cards loaded from any file can be read back without leaving the conversion table. -/
namespace Verif.Card

def Cols (m : Img) : Prop := ∀ x ∈ m, x < 4096

theorem Cols.set {m : Img} (h : Cols m) {k v : Nat} (hv : v < 4096) : Cols (m.set k v) := by
  intro x hx
  rcases List.mem_or_eq_of_mem_set hx with hx | rfl
  · exact h x hx
  · exact hv

theorem textToHol_lt4096 {c t : Nat} (h : textToHol c = some t) : t < 4096 := by
  unfold textToHol at h
  rw [Option.map_eq_some_iff] at h
  obtain ⟨a, -, rfl⟩ := h
  exact Nat.lt_of_le_of_lt Nat.and_le_right (by decide)

theorem textLoop_cols {mem len} : ∀ (n col i : Nat) (img : Img) {i' : Nat} {img' : Img}, Cols img →
    textLoop mem len n col i img = .ok (i', img') → Cols img' := by
  intro n
  induction n with
  | zero => intro col i img i' img' _ h; cases h
  | succ n ih =>
    intro col i img i' img' hc h
    by_cases hcond : col < 80 ∧ i < len
    · simp only [textLoop, if_pos hcond] at h
      cases hr : rdB mem i with
      | oob => simp [hr] at h
      | fuel => simp [hr] at h
      | ok c =>
        simp only [hr, Res.bind_ok] at h
        split at h
        · exact ih _ _ _ hc h
        · split at h
          · exact ih _ _ _ hc h
          · split at h
            · exact ih _ _ _ hc h
            · cases ht : textToHol c with
              | none => simp [ht, look] at h
              | some t =>
                simp only [ht, look, Res.bind_ok] at h
                by_cases hl : col < img.length
                · rw [setCol_ok hl] at h
                  exact ih _ _ _ (hc.set (textToHol_lt4096 ht)) h
                · simp [setCol, hl] at h
    · simp only [textLoop, if_neg hcond, Res.ok.injEq, Prod.mk.injEq] at h
      rw [← h.2]; exact hc

theorem blank_cols : Cols blank := by
  intro x hx
  simp only [blank, List.mem_replicate] at hx
  omega

theorem parseText_cols {mem len} (h0 : mem 0 ≠ tilde) {img : Img} {i : Nat} (h : parseText mem len = .ok (img, i)) : Cols img := by
  have hcc : ∀ a b c, cmpCard mem a b c = false := by
    intro a b c
    have : (mem 0 == tilde) = false := by simpa using h0
    simp [cmpCard, this]
  unfold parseText at h
  simp only [h0, if_false] at h
  have hb : textBody mem len = textLoop mem len (len + 2) 0 0 blank := by
    simp only [textBody, hcc, Bool.false_eq_true, if_false]
  rw [hb] at h
  cases ht : textLoop mem len (len + 2) 0 0 blank with
  | oob => simp [ht] at h
  | fuel => simp [ht] at h
  | ok r =>
    obtain ⟨j, m⟩ := r
    simp only [ht, Res.bind_ok] at h
    cases he : endCard mem len j with
    | oob => simp [he] at h
    | fuel => simp [he] at h
    | ok e =>
      simp [he] at h
      rw [← h.1]
      exact textLoop_cols _ _ _ _ blank_cols ht

theorem binLoop_cols {mem} : ∀ (n i t : Nat) {cs : List Nat} {t' : Nat}, binLoop mem n i t = .ok (cs, t') → Cols cs := by
  intro n
  induction n with
  | zero => intro i t cs t' h; simp [binLoop] at h; rw [h.1]; intro x hx; simp at hx
  | succ n ih =>
    intro i t cs t' h
    simp only [binLoop] at h
    cases h1 : rdB mem i with
    | oob => simp [h1] at h
    | fuel => simp [h1] at h
    | ok a =>
      cases h2 : rdB mem (i + 1) with
      | oob => simp [h1, h2] at h
      | fuel => simp [h1, h2] at h
      | ok b =>
        simp only [h1, h2, Res.bind_ok] at h
        cases h3 : binLoop mem n (i + 2) (t ||| a) with
        | oob => simp [h3] at h
        | fuel => simp [h3] at h
        | ok r =>
          obtain ⟨cs', t''⟩ := r
          simp only [h3, Res.bind_ok, Res.ok.injEq, Prod.mk.injEq] at h
          rw [← h.1]
          intro x hx
          rcases List.mem_cons.mp hx with rfl | hx
          · apply Nat.or_lt_two_pow (n := 12)
            · exact Nat.lt_of_le_of_lt Nat.and_le_right (by decide)
            · have : b &&& 0xff ≤ 0xff := Nat.and_le_right
              rw [Nat.shiftLeft_eq]; omega
          · exact ih _ _ h3 x hx

theorem parseBin_cols {mem len} {img : Img} {o : Option Nat} (h : parseBin mem len = .ok (img, o)) : Cols img := by
  unfold parseBin at h
  split at h
  · simp only [Res.ok.injEq, Prod.mk.injEq] at h
    rw [← h.1]; exact blank_cols.set (by decide)
  · cases hb : binLoop mem 80 0 0 with
    | oob => simp [hb] at h
    | fuel => simp [hb] at h
    | ok r =>
      obtain ⟨cs, t⟩ := r
      simp only [hb, Res.bind_ok, Res.ok.injEq, Prod.mk.injEq] at h
      rw [← h.1]
      have := binLoop_cols _ _ _ hb
      split
      · exact this.set (by decide)
      · exact this

theorem ebcLoop_cols {mem len} : ∀ (n i : Nat) (img : Img) {i' : Nat} {img' : Img}, Cols img →
    ebcLoop mem len n i img = .ok (i', img') → Cols img' := by
  intro n
  induction n with
  | zero => intro i img i' img' hc h; simp [ebcLoop] at h; rw [← h.2]; exact hc
  | succ n ih =>
    intro i img i' img' hc h
    by_cases hcond : i < len
    · simp only [ebcLoop, if_pos hcond] at h
      cases hr : rdB mem i with
      | oob => simp [hr] at h
      | fuel => simp [hr] at h
      | ok c =>
        simp only [hr, Res.bind_ok] at h
        cases ht : ebcdicToHol c with
        | none => simp [ht, look] at h
        | some t =>
          simp only [ht, look, Res.bind_ok] at h
          by_cases hl : i < img.length
          · rw [setCol_ok hl] at h
            apply ih _ _ (hc.set _) h
            unfold ebcdicToHol at ht
            exact ebcdicToHolTab_lt _ (List.mem_of_getElem? ht)
          · simp [setCol, hl] at h
    · simp only [ebcLoop, if_neg hcond, Res.ok.injEq, Prod.mk.injEq] at h
      rw [← h.2]; exact hc

theorem parseCard_cols {mode mem len} (h0 : mode = .bin ∨ mode = .ebcdic ∨ mem 0 ≠ tilde) {img : Img} {o : Option Nat}
    (h : parseCard mode mem len = .ok (img, o)) : Cols img := by
  unfold parseCard at h
  cases hm : cardMode mode mem len with
  | oob => simp [hm] at h
  | fuel => simp [hm] at h
  | ok m =>
    simp only [hm, Res.bind_ok] at h
    have text : (do let (img, i) ← parseText mem len; Res.ok (img, some i)) = .ok (img, o) → mem 0 ≠ tilde → Cols img := by
      intro h hne
      cases ht : parseText mem len with
      | oob => simp [ht] at h
      | fuel => simp [ht] at h
      | ok r =>
        obtain ⟨a, b⟩ := r
        simp [ht] at h
        rw [← h.1]
        exact parseText_cols hne ht
    have nt : m ≠ .bin → m ≠ .ebcdic → mem 0 ≠ tilde := by
      intro h1 h2
      rcases h0 with rfl | rfl | h
      · simp [cardMode] at hm; exact absurd hm.symm h1
      · simp [cardMode] at hm; exact absurd hm.symm h2
      · exact h
    cases m with
    | bin => exact parseBin_cols h
    | ebcdic =>
      simp only at h
      cases he : parseEbc mem len with
      | oob => simp [he] at h
      | fuel => simp [he] at h
      | ok r =>
        obtain ⟨a, b⟩ := r
        simp [he] at h
        rw [← h.1]
        unfold parseEbc at he
        cases hl : ebcLoop mem len 80 0 (if len < 80 then blank.set 0 0xfff else blank) with
        | oob => simp [hl] at he
        | fuel => simp [hl] at he
        | ok r2 =>
          obtain ⟨x, y⟩ := r2
          simp [hl] at he
          rw [← he.1]
          apply ebcLoop_cols _ _ _ _ hl
          split
          · exact blank_cols.set (by decide)
          · exact blank_cols
    | text => exact text h (nt (by simp) (by simp))
    | octal => exact text h (nt (by simp) (by simp))
    | auto => exact text h (nt (by simp) (by simp))

/-- C63. If loading a file ends, all cards can be read, for every file in binary and EBCDIC format
and for every text file without `~`. -/
theorem C63_loaded_cards_readable_partial (mode : Mode) (file : List Nat)
    (h0 : mode = .bin ∨ mode = .ebcdic ∨ tilde ∉ file) (n : Nat) (junk : Nat → Nat) (c : Ctx)
    (h : readDeck n junk (fresh mode) file = .ok c) : ∃ cards n0, ∀ k, n0 ≤ k → drain k c = .ok cards := by
  have gen : ∀ (n : Nat) (s : Rd) (B : List Nat) (c : Ctx), Wf s.ctx → s.ctx.mode = mode → Inv s B →
      (mode = .bin ∨ mode = .ebcdic ∨ (tilde ∉ B ∧ s.mem 0 ≠ tilde)) → (∀ m ∈ s.ctx.content, Cols m) → readLoop n s = .ok c →
      Wf c ∧ ∀ m ∈ c.content, Cols m := by
    intro n
    induction n with
    | zero => intro s B c _ _ _ _ _ h; cases h
    | succ n ih =>
      intro s B c hw hm hi ht hc h
      simp only [readLoop] at h
      obtain ⟨r1, r2, -, -⟩ := refill_spec hi
      cases hp : parseCard s.ctx.mode (refill s).mem (refill s).len with
      | oob => rw [(readStep_bad hw hp).1 rfl] at h; cases h
      | fuel => rw [(readStep_bad hw hp).2 rfl] at h; cases h
      | ok r =>
        obtain ⟨img, o⟩ := r
        obtain ⟨c', -, e2, e3, e4, e5, e6, e7⟩ := readStep_ok hw hp
        have hr0 : mode = .bin ∨ mode = .ebcdic ∨ (tilde ∉ B ∧ (refill s).mem 0 ≠ tilde) := by
          rcases ht with ht | ht | ⟨ht, ht2⟩
          · exact Or.inl ht
          · exact Or.inr (Or.inl ht)
          · refine Or.inr (Or.inr ⟨ht, ?_⟩)
            by_cases hl : 0 < (refill s).len
            · obtain ⟨b, b1, b2, b3⟩ := r1.buf
              rw [b3 0 (by omega)]
              intro heq
              apply ht
              rw [b2, ← heq]
              exact List.mem_append_left _ (List.getElem_mem _)
            · unfold refill at hl ⊢
              split
              · rename_i hcond
                simp only [hcond, and_self, if_true] at hl ⊢
                rw [if_neg (by omega)]; exact ht2
              · exact ht2
        have hcols : Cols img := parseCard_cols (mode := s.ctx.mode) (by
          rw [hm]
          rcases hr0 with a | a | ⟨-, a⟩
          · exact Or.inl a
          · exact Or.inr (Or.inl a)
          · exact Or.inr (Or.inr a)) hp
        have hcont : ∀ m ∈ c'.content, Cols m := by
          intro m hm'
          rw [e3, List.mem_append, List.mem_singleton] at hm'
          rcases hm' with hm' | rfl
          · exact hc m hm'
          · exact hcols
        rw [e7] at h
        simp only [Res.bind_ok] at h
        split at h
        · rename_i hpos
          have hle : o.getD s.size ≤ (refill s).len := by simp only [shift] at hpos; omega
          have hi' := shift_inv r1 _ hle c'
          refine ih _ _ c e2 (by rw [e5, hm]) hi' ?_ hcont h
          rcases ht with ht | ht | ⟨ht, ht2⟩
          · exact Or.inl ht
          · exact Or.inr (Or.inl ht)
          · refine Or.inr (Or.inr ⟨fun hmem => ht (List.mem_of_mem_drop hmem), ?_⟩)
            obtain ⟨b, b1, b2, b3⟩ := hi'.buf
            have hpos' : 0 < b.length := by rw [b1]; exact hpos
            rw [b3 0 hpos']
            intro heq
            apply ht
            apply List.mem_of_mem_drop (i := o.getD s.size)
            rw [b2, ← heq]
            exact List.mem_append_left _ (List.getElem_mem _)
        · simp only [Res.ok.injEq] at h
          rw [← h]
          exact ⟨e2, hcont⟩
  rw [readDeck_eq (c1 := fresh mode) rfl] at h
  cases hr : readLoop n (startRd (fresh mode) junk file) with
  | oob => simp [hr] at h
  | fuel => simp [hr] at h
  | ok d =>
    simp only [hr, Res.bind_ok, Res.ok.injEq] at h
    obtain ⟨g1, g2⟩ := gen n (startRd (fresh mode) junk file) file d (fresh_wf mode) rfl (startRd_inv _ _ _)
      (by
        rcases h0 with a | a | a
        · exact Or.inl a
        · exact Or.inr (Or.inl a)
        · exact Or.inr (Or.inr ⟨a, by simp [startRd, tilde]⟩)) (by intro m hm; simp [startRd, fresh, Ctx.content] at hm) hr
    refine ⟨c.hopper, c.hopper.length + 1, fun k hk => ?_⟩
    rw [← h] at hk ⊢
    refine drain_ok _ _ _ ⟨g1.cards, g1.pos⟩ rfl ?_ (by omega)
    intro m hm
    exact g2 m (List.mem_of_mem_drop hm)

/-- Loading "AB" and "C" as text satisfies the hypotheses (and succeeds for any buffer content). -/
example : tilde ∉ [65, 66, lf, 67, lf] := by decide

/-- C63, negation: a `~raw` card continued on a second line loads, but reading it indexes the
conversion table with 0xfe92. -/
theorem C63_violated_raw_continuation (n : Nat) (junk : Nat → Nat) :
    ∃ c, readDeck (n + 1) junk (fresh .text) [tilde, 114, 97, 119, 49, lf, 50, 50, 50] = .ok c ∧ readCard c = .oob := by
  let file : List Nat := [tilde, 114, 97, 119, 49, lf, 50, 50, 50]
  let s0 := startRd (fresh .text) junk file
  have hp : parseCard s0.ctx.mode (refill s0).mem (refill s0).len = .ok (lead [0xfe92], some 9) ∨
      parseCard s0.ctx.mode (refill s0).mem (refill s0).len = .ok (lead [0xfe92], some 10) ∨
      parseCard s0.ctx.mode (refill s0).mem (refill s0).len = .ok (lead [0xfe92], some 11) := by
    have hlen : (refill s0).len = 9 := rfl
    have m0 : (refill s0).mem 0 = tilde := rfl
    have m1 : (refill s0).mem 1 = 114 := rfl
    have m2 : (refill s0).mem 2 = 97 := rfl
    have m3 : (refill s0).mem 3 = 119 := rfl
    have m4 : (refill s0).mem 4 = 49 := rfl
    have m5 : (refill s0).mem 5 = lf := rfl
    have m6 : (refill s0).mem 6 = 50 := rfl
    have m7 : (refill s0).mem 7 = 50 := rfl
    have m8 : (refill s0).mem 8 = 50 := rfl
    have hmode : s0.ctx.mode = .text := rfl
    rw [hlen, hmode]
    generalize (refill s0).mem = mem at *
    have rd : ∀ i, i < 12 → rdB mem i = .ok (mem i) := fun i hi => rdB_ok (by omega)
    have ts : tildeScan mem 9 (9 + 1) 1 1 = .ok (false, 2) := by
      simp [tildeScan, rd, m1, lf, cr, sp, tab]
    have cc : cmpCard mem 114 97 119 = true := by simp [cmpCard, m0, m1, m2, m3, toLower]
    have rl : rawLoop mem 9 (9 + 1) 0 0 4 blank = .ok (9, lead [0xfe92]) := by
      have d1 : ∀ (n col j i d v : Nat) (img : Img), col < 80 ∧ i < 9 → mem i = 48 + d → d < 8 → getCol img col = .ok v → img.length = 80 →
          i < 12 → rawLoop mem 9 (n + 1) col j i img = if j + 1 = 4
            then rawLoop mem 9 n (col + 1) 0 (i + 1) (img.set col (((v <<< 3) % 65536) ||| d))
            else rawLoop mem 9 n col (j + 1) (i + 1) (img.set col (((v <<< 3) % 65536) ||| d)) := by
        intro n col j i d v img h1 h2 h3 h4 h5 h6
        simp only [rawLoop]
        rw [if_pos h1]
        simp only [rd i h6, h2, Res.bind_ok]
        rw [if_pos (by omega)]
        simp only [h4, Res.bind_ok, setCol_ok (show col < img.length by omega), show 48 + d - 48 = d by omega]
      have d2 : ∀ (n : Nat), rawLoop mem 9 (n + 1) 0 1 5 (blank.set 0 1) = rawLoop mem 9 n 0 1 6 (blank.set 0 0xfff) := by
        intro n
        simp only [rawLoop]
        rw [if_pos (by omega)]
        simp only [rd 5 (by omega), m5, Res.bind_ok]
        rw [if_neg (by decide), if_pos (by decide)]
        simp only [show getCol (blank.set 0 1) 0 = .ok 1 from rfl, Res.bind_ok, setCol_ok (show 0 < (blank.set 0 1).length by decide)]
        rfl
      rw [d1 9 0 0 4 1 0 blank (by omega) m4 (by omega) rfl rfl (by omega), if_neg (by omega)]
      rw [show blank.set 0 ((0 <<< 3) % 65536 ||| 1) = blank.set 0 1 from rfl, d2 8]
      rw [d1 7 0 1 6 2 0xfff _ (by omega) m6 (by omega) rfl rfl (by omega), if_neg (by omega)]
      rw [d1 6 0 2 7 2 0x7ffa _ (by omega) m7 (by omega) rfl rfl (by omega), if_neg (by omega)]
      rw [d1 5 0 3 8 2 0xffd2 _ (by omega) m8 (by omega) rfl rfl (by omega), if_pos (by omega)]
      simp only [rawLoop]
      rw [if_neg (by omega)]
      rfl
    have le : lineEnd mem 9 (9 + 2) 9 = .ok 9 := by
      simp [lineEnd, rd]
    have ec : endCard mem 9 9 = .ok 9 ∨ endCard mem 9 9 = .ok 10 ∨ endCard mem 9 9 = .ok 11 := by
      simp only [endCard, le, Res.bind_ok, rd 9 (by omega)]
      by_cases h1 : mem 9 = cr
      · simp only [h1, if_true, rd 10 (by omega), Res.bind_ok]
        by_cases h2 : mem 10 = lf
        · simp [h2]
        · simp [h2]
      · simp only [h1, if_false, rd 9 (by omega), Res.bind_ok]
        by_cases h2 : mem 9 = lf
        · simp [h2]
        · simp [h2]
    have tb : textBody mem 9 = .ok (9, lead [0xfe92]) := by
      simp only [textBody, cc, if_true, rl]
    have pt : ∀ e, endCard mem 9 9 = .ok e → parseCard .text mem 9 = .ok (lead [0xfe92], some e) := by
      intro e he
      simp only [parseCard, cardMode, Res.bind_ok, parseText, m0, if_true, ts, Bool.false_eq_true, if_false, tb, he]
    rcases ec with h | h | h
    · exact Or.inl (pt 9 h)
    · exact Or.inr (Or.inl (pt 10 h))
    · exact Or.inr (Or.inr (pt 11 h))
  have fin : ∀ e, 9 ≤ e → parseCard s0.ctx.mode (refill s0).mem (refill s0).len = .ok (lead [0xfe92], some e) →
      ∃ c, readDeck (n + 1) junk (fresh .text) file = .ok c ∧ readCard c = .oob := by
    intro e he hp
    obtain ⟨c', -, e2, e3, e4, e5, e6, e7⟩ := readStep_ok (s := s0) (fresh_wf _) hp
    have hr : readDeck (n + 1) junk (fresh .text) file = .ok { c' with out := none } := by
      rw [readDeck_eq (c1 := fresh .text) rfl]
      show (do let c ← readLoop (n + 1) s0; Res.ok { c with out := none }) = _
      simp only [readLoop, e7, Res.bind_ok]
      have hlen : (refill s0).len = 9 := rfl
      rw [if_neg (by simp only [shift, Option.getD_some, hlen]; omega)]
      rfl
    refine ⟨_, hr, ?_⟩
    have hz : c'.pos = 0 := e4
    have hcont : c'.content = [lead [0xfe92]] := e3
    have hcards : c'.cards = 1 := by rw [← e2.content_length, hcont]; rfl
    have himg : c'.images[0]? = some (lead [0xfe92]) := by
      have := congrArg (fun l : List Img => l[0]?) hcont
      simp only [Ctx.content, hcards] at this
      rw [List.getElem?_take_of_lt (by omega)] at this
      exact this
    have hpe : punchEbc (lead [0xfe92]) = .oob := by
      simp only [lead, List.cons_append, punchEbc, (C14_table_bound 0xfe92).mpr (by decide), look, Res.bind_oob]
    simp only [readCard, hz, hcards]
    rw [if_neg (by omega)]
    simp [getImg, himg, hpe]
  rcases hp with h | h | h
  · exact fin 9 (by omega) h
  · exact fin 10 (by omega) h
  · exact fin 11 (by omega) h

end Verif.Card
