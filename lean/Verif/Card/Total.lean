import Verif.Card.ParsePlain
/- Every parse ends, and where it can leave an array. -/
namespace Verif.Card

theorem tildeScan_total {mem len} (hl : len ≤ 8691) : ∀ (n col i : Nat), len - i < n →
    ∃ b j, tildeScan mem len n col i = .ok (b, j) ∧ i ≤ j ∧ j ≤ max i len := by
  intro n
  induction n with
  | zero => intro col i h; omega
  | succ n ih =>
    intro col i h
    by_cases hc : col < 80 ∧ i < len
    · have hrd := rdB_ok (mem := mem) (show i ≤ 8691 by omega)
      simp only [tildeScan, if_pos hc, hrd, Res.bind_ok]
      split
      · obtain ⟨b, j, h1, h2, h3⟩ := ih 80 (i + 1) (by omega)
        exact ⟨b, j, h1, by omega, by omega⟩
      · split
        · obtain ⟨b, j, h1, h2, h3⟩ := ih col (i + 1) (by omega)
          exact ⟨b, j, h1, by omega, by omega⟩
        · split
          · obtain ⟨b, j, h1, h2, h3⟩ := ih ((col ||| 7) + 1) (i + 1) (by omega)
            exact ⟨b, j, h1, by omega, by omega⟩
          · exact ⟨false, i + 1, rfl, by omega, by omega⟩
    · exact ⟨true, i, by simp only [tildeScan, if_neg hc], by omega, by omega⟩

theorem getCol_ok {img : Img} {k : Nat} (h : k < img.length) : ∃ v, getCol img k = .ok v := ⟨img[k], by simp [getCol, h, look]⟩

theorem setCol_ok {img : Img} {k v : Nat} (h : k < img.length) : setCol img k v = .ok (img.set k v) := by simp [setCol, h]

theorem rawLoop_total {mem len} (hl : len ≤ 8691) : ∀ (n col j i : Nat) (img : Img), img.length = 80 → len - i < n →
    ∃ i' img', rawLoop mem len n col j i img = .ok (i', img') ∧ img'.length = 80 ∧ i ≤ i' ∧ i' ≤ max i len := by
  intro n
  induction n with
  | zero => intro col j i img _ h; omega
  | succ n ih =>
    intro col j i img hi h
    by_cases hc : col < 80 ∧ i < len
    · have hrd := rdB_ok (mem := mem) (show i ≤ 8691 by omega)
      simp only [rawLoop, if_pos hc, hrd, Res.bind_ok]
      split
      · obtain ⟨v, hv⟩ := getCol_ok (img := img) (k := col) (by omega)
        simp only [hv, Res.bind_ok, setCol_ok (show col < img.length by omega)]
        split
        · obtain ⟨i', img', h1, h2, h3, h4⟩ := ih (col + 1) 0 (i + 1) (img.set col (((v <<< 3) % 65536) ||| (mem i - 48))) (by simpa using hi) (by omega)
          exact ⟨i', img', h1, h2, by omega, by omega⟩
        · obtain ⟨i', img', h1, h2, h3, h4⟩ := ih col (j + 1) (i + 1) (img.set col (((v <<< 3) % 65536) ||| (mem i - 48))) (by simpa using hi) (by omega)
          exact ⟨i', img', h1, h2, by omega, by omega⟩
      · split
        · obtain ⟨v, hv⟩ := getCol_ok (img := img) (k := 0) (by omega)
          simp only [hv, Res.bind_ok, setCol_ok (show 0 < img.length by omega)]
          split
          · obtain ⟨i', img', h1, h2, h3, h4⟩ := ih (col + 1) 0 (i + 1) (img.set 0 (v ||| 0xfff)) (by simpa using hi) (by omega)
            exact ⟨i', img', h1, h2, by omega, by omega⟩
          · obtain ⟨i', img', h1, h2, h3, h4⟩ := ih col j (i + 1) (img.set 0 (v ||| 0xfff)) (by simpa using hi) (by omega)
            exact ⟨i', img', h1, h2, by omega, by omega⟩
        · exact ⟨i, img, rfl, hi, by omega, by omega⟩
    · exact ⟨i, img, by simp only [rawLoop, if_neg hc], hi, by omega, by omega⟩

/-- All bytes in the buffer are 7-bit. -/
def Seven (mem : Nat → Nat) (len : Nat) : Prop := ∀ i, i < len → mem i < 128

theorem textToHol_lt {c : Nat} (h : c < 128) : ∃ t, textToHol c = some t := by
  have : c < asciiToHol029Tab.length := by rw [asciiToHol029Tab_len]; exact h
  have h2 : (textToHol c).isSome := by simp [textToHol, this]
  exact Option.isSome_iff_exists.mp h2

theorem textLoop_total {mem len} (hl : len ≤ 8691) : ∀ (n col i : Nat) (img : Img), img.length = 80 →
    (len - i) + (if col < 80 then 1 else 0) < n →
    (∃ i' img', textLoop mem len n col i img = .ok (i', img') ∧ img'.length = 80 ∧ i ≤ i' ∧ i' ≤ max i len ∧
        (i < i' ∨ mem i = lf ∨ len ≤ i ∨ 80 ≤ col)) ∨
      (textLoop mem len n col i img = .oob ∧ ¬ Seven mem len) := by
  intro n
  induction n with
  | zero => intro col i img _ h; omega
  | succ n ih =>
    intro col i img hi h
    by_cases hc : col < 80 ∧ i < len
    · have hrd := rdB_ok (mem := mem) (show i ≤ 8691 by omega)
      rw [if_pos hc.1] at h
      have step : ∀ (col' : Nat) (img' : Img), img'.length = 80 →
          (∃ j img'', textLoop mem len n col' (i + 1) img' = .ok (j, img'') ∧ img''.length = 80 ∧ i ≤ j ∧ j ≤ max i len ∧
            (i < j ∨ mem i = lf ∨ len ≤ i ∨ 80 ≤ col)) ∨
          (textLoop mem len n col' (i + 1) img' = .oob ∧ ¬ Seven mem len) := by
        intro col' img' hi'
        have : (len - (i + 1)) + (if col' < 80 then 1 else 0) < n := by split <;> omega
        rcases ih col' (i + 1) img' hi' this with ⟨j, m, h1, h2, h3, h4, -⟩ | h1
        · exact Or.inl ⟨j, m, h1, h2, by omega, by omega, Or.inl (by omega)⟩
        · exact Or.inr h1
      simp only [textLoop, if_pos hc, hrd, Res.bind_ok]
      split
      · exact step _ _ hi
      · split
        · exact step _ _ hi
        · split
          · rename_i hlf
            have : (len - i) + (if (80 : Nat) < 80 then 1 else 0) < n := by simp; omega
            rcases ih 80 i img hi this with ⟨j, m, h1, h2, h3, h4, -⟩ | h1
            · exact Or.inl ⟨j, m, h1, h2, h3, h4, Or.inr (Or.inl hlf)⟩
            · exact Or.inr h1
          · cases ht : textToHol (mem i) with
            | some t =>
              simp only [look, Res.bind_ok, setCol_ok (show col < img.length by omega)]
              exact step _ _ (by simpa using hi)
            | none =>
              right
              refine ⟨by simp [look], fun hs => ?_⟩
              obtain ⟨t, h2⟩ := textToHol_lt (hs i hc.2)
              rw [h2] at ht; cases ht
    · left
      exact ⟨i, img, by simp only [textLoop, if_neg hc], hi, by omega, by omega, by omega⟩

theorem lineEnd_total {mem len} (hl : len ≤ 8691) : ∀ (n i : Nat), len - i < n → i ≤ 8691 →
    ∃ j, lineEnd mem len n i = .ok j ∧ i ≤ j ∧ j ≤ max i len ∧ (mem j = lf ∨ mem j = cr ∨ len ≤ j) := by
  intro n
  induction n with
  | zero => intro i h; omega
  | succ n ih =>
    intro i h hi
    have hrd := rdB_ok (mem := mem) hi
    simp only [lineEnd, hrd, Res.bind_ok]
    split
    · obtain ⟨j, h1, h2, h3, h4⟩ := ih (i + 1) (by omega) (by omega)
      exact ⟨j, h1, by omega, by omega, h4⟩
    · rename_i hc
      exact ⟨i, rfl, by omega, by omega, by omega⟩

/-- The only way to leave the buffer: a carriage return in its last, never written, byte. -/
theorem endCard_total {mem len i} (hl : len ≤ 8691) (hi : i ≤ 8691) :
    (∃ e, endCard mem len i = .ok e ∧ i ≤ e ∧ (i < e ∨ len ≤ i) ) ∨ (endCard mem len i = .oob ∧ mem 8691 = cr) := by
  obtain ⟨j, h1, h2, h3, h4⟩ := lineEnd_total (mem := mem) hl (len + 2) i (by omega) hi
  have hj : j ≤ 8691 := by omega
  have hrd := rdB_ok (mem := mem) hj
  simp only [endCard, h1, Res.bind_ok, hrd]
  by_cases hc : mem j = cr
  · simp only [hc, if_true]
    by_cases hj2 : j + 1 ≤ 8691
    · left
      simp only [rdB_ok (mem := mem) hj2, Res.bind_ok]
      refine ⟨_, rfl, ?_, ?_⟩
      · split <;> omega
      · left; split <;> omega
    · right
      have : j = 8691 := by omega
      subst this
      exact ⟨by simp [rdB, bufSize], hc⟩
  · left
    simp only [hc, if_false, hrd, Res.bind_ok]
    by_cases hlf : mem j = lf
    · simp only [hlf, if_true]; exact ⟨j + 1, rfl, by omega, Or.inl (by omega)⟩
    · simp only [hlf, if_false]
      refine ⟨j, rfl, h2, ?_⟩
      rcases h4 with h | h | h
      · exact absurd h hlf
      · exact absurd h hc
      · by_cases hij : i < j
        · exact Or.inl hij
        · right; omega

theorem blank_length : blank.length = 80 := by simp [blank]

theorem textBody_total {mem len} (hl : len ≤ 8691) :
    (∃ i img, textBody mem len = .ok (i, img) ∧ img.length = 80 ∧ i ≤ 8691) ∨ (textBody mem len = .oob ∧ ¬ Seven mem len) := by
  unfold textBody
  split
  · obtain ⟨i', img', h1, h2, h3, h4⟩ := rawLoop_total (mem := mem) hl (len + 1) 0 0 4 blank blank_length (by omega)
    exact Or.inl ⟨i', img', h1, h2, by omega⟩
  · split
    · exact Or.inl ⟨4, _, rfl, by rw [List.length_set, blank_length], by omega⟩
    · split
      · exact Or.inl ⟨4, _, rfl, by rw [List.length_set, blank_length], by omega⟩
      · split
        · exact Or.inl ⟨4, _, rfl, by rw [List.length_set, blank_length], by omega⟩
        · rcases textLoop_total (mem := mem) hl (len + 2) 0 0 blank blank_length (by simp) with ⟨i', img', h1, h2, h3, h4, -⟩ | h1
          · exact Or.inl ⟨i', img', h1, h2, by omega⟩
          · exact Or.inr h1

/-- Text cards: parsing ends; a non-empty buffer is consumed by at least one byte. -/
theorem parseText_total {mem len} (hl : len ≤ 8691) :
    (∃ img e, parseText mem len = .ok (img, e) ∧ img.length = 80 ∧ (0 < len → 0 < e)) ∨
    (parseText mem len = .oob ∧ (¬ Seven mem len ∨ mem 8691 = cr)) := by
  have body : ∀ (z : Nat),
      (∃ img e, (do let (i, img) ← textBody mem len; let e ← endCard mem len i; Res.ok (img, e)) = .ok (img, e) ∧
        img.length = 80 ∧ (0 < len → 0 < e)) ∨
      ((do let (i, img) ← textBody mem len; let e ← endCard mem len i; Res.ok (img, e)) = .oob ∧ (¬ Seven mem len ∨ mem 8691 = cr)) := by
    intro _
    rcases textBody_total (mem := mem) hl with ⟨i, img, h1, h2, h3⟩ | ⟨h1, h2⟩
    · simp only [h1, Res.bind_ok]
      rcases endCard_total (mem := mem) hl h3 with ⟨e, g1, g2, g3⟩ | ⟨g1, g2⟩
      · exact Or.inl ⟨img, e, by simp [g1], h2, by omega⟩
      · exact Or.inr ⟨by simp [g1], Or.inr g2⟩
    · exact Or.inr ⟨by simp [h1], Or.inl h2⟩
  unfold parseText
  by_cases h0 : mem 0 = tilde
  · simp only [h0, if_true]
    obtain ⟨b, j, h1, h2, h3⟩ := tildeScan_total (mem := mem) hl (len + 1) 1 1 (by omega)
    simp only [h1, Res.bind_ok]
    cases b
    · simpa using body 0
    · simp only [if_true]
      rcases endCard_total (mem := mem) (i := j) hl (by omega) with ⟨e, g1, g2, g3⟩ | ⟨g1, g2⟩
      · exact Or.inl ⟨blank, e, by simp [g1], blank_length, by omega⟩
      · exact Or.inr ⟨by simp [g1], Or.inr g2⟩
  · simpa [h0] using body 0

theorem binLoop_total {mem} : ∀ (n i t : Nat), i + 2 * n ≤ 8691 → ∃ cs t', binLoop mem n i t = .ok (cs, t') ∧ cs.length = n := by
  intro n
  induction n with
  | zero => intro i t _; exact ⟨[], t, rfl, rfl⟩
  | succ n ih =>
    intro i t h
    obtain ⟨cs, t', h1, h2⟩ := ih (i + 2) (t ||| mem i) (by omega)
    simp only [binLoop, rdB_ok (mem := mem) (show i ≤ 8691 by omega), rdB_ok (mem := mem) (show i + 1 ≤ 8691 by omega), Res.bind_ok, h1]
    exact ⟨_, _, rfl, by simp [h2]⟩

theorem parseBin_total {mem len} : ∃ img o, parseBin mem len = .ok (img, o) ∧ img.length = 80 ∧
    ((len < 160 ∧ o = none) ∨ (160 ≤ len ∧ o = some 160)) := by
  unfold parseBin
  split
  · exact ⟨_, _, rfl, by rw [List.length_set, blank_length], Or.inl ⟨by assumption, rfl⟩⟩
  · obtain ⟨cs, t', h1, h2⟩ := binLoop_total (mem := mem) 80 0 0 (by omega)
    refine ⟨if t' &&& 0xf ≠ 0 then cs.set 0 0xfff else cs, some 160, by simp [h1], ?_, Or.inr ⟨by omega, rfl⟩⟩
    split <;> simp [h2]

theorem ebcLoop_total {mem len} (hl : len ≤ 8691) (hb : ∀ i, i < len → mem i < 256) : ∀ (n i : Nat) (img : Img), img.length = 80 →
    i + n ≤ 80 → ∃ i' img', ebcLoop mem len n i img = .ok (i', img') ∧ img'.length = 80 ∧ i ≤ i' ∧ (0 < n → i < len → i < i') := by
  intro n
  induction n with
  | zero => intro i img h _; exact ⟨i, img, rfl, h, by omega, by omega⟩
  | succ n ih =>
    intro i img h hi
    by_cases hc : i < len
    · have hrd := rdB_ok (mem := mem) (show i ≤ 8691 by omega)
      obtain ⟨t, ht, -⟩ := C13_ebcdic_round_trip (mem i) (hb i hc)
      obtain ⟨i', img', h1, h2, h3, h4⟩ := ih (i + 1) (img.set i t) (by simpa using h) (by omega)
      refine ⟨i', img', ?_, h2, by omega, by omega⟩
      simp only [ebcLoop, if_pos hc, hrd, Res.bind_ok, ht, look, setCol_ok (show i < img.length by omega), h1]
    · exact ⟨i, img, by simp only [ebcLoop, if_neg hc], h, by omega, by omega⟩

theorem parseEbc_total {mem len} (hl : len ≤ 8691) (hb : ∀ i, i < len → mem i < 256) :
    ∃ img i, parseEbc mem len = .ok (img, i) ∧ img.length = 80 ∧ (0 < len → 0 < i) := by
  obtain ⟨i', img', h1, h2, h3, h4⟩ := ebcLoop_total (mem := mem) hl hb 80 0 (if len < 80 then blank.set 0 0xfff else blank)
    (by split <;> simp only [List.length_set, blank_length]) (by omega)
  exact ⟨img', i', by simp [parseEbc, h1], h2, by omega⟩

theorem autoScan_final {mem len} (hl : len ≤ 8691) : ∀ (n i t : Nat), i ≤ 160 → i % 2 = 0 →
    ∃ i' t', autoScan mem len n i t = .ok (i', t') ∧ i' % 2 = 0 ∧ i' ≤ 160 ∧ (i < i' → i' - 2 < len) ∧ i ≤ i' := by
  intro n
  induction n with
  | zero => intro i t h1 h2; exact ⟨i, t, rfl, h2, h1, by omega, by omega⟩
  | succ n ih =>
    intro i t h1 h2
    by_cases hc : i < 160 ∧ i < len
    · obtain ⟨i', t', e1, e2, e3, e4, e5⟩ := ih (i + 2) (t ||| mem i) (by omega) (by omega)
      refine ⟨i', t', ?_, e2, e3, by omega, by omega⟩
      simp only [autoScan, if_pos hc, rdB_ok (mem := mem) (show i ≤ 8691 by omega), Res.bind_ok, e1]
    · exact ⟨i, t, by simp only [autoScan, if_neg hc], h2, h1, by omega, by omega⟩

/-- Automatic mode: either text, or binary with at least 159 bytes in the buffer. -/
theorem cardMode_auto {mem len} (hl : len ≤ 8691) : cardMode .auto mem len = .ok .text ∨
    (cardMode .auto mem len = .ok .bin ∧ 159 ≤ len) := by
  obtain ⟨i', t', e1, e2, e3, e4, e5⟩ := autoScan_final (mem := mem) hl 81 0 0 (by omega) (by omega)
  unfold cardMode
  simp only [e1, Res.bind_ok]
  split
  · rename_i h
    exact Or.inr ⟨rfl, by omega⟩
  · exact Or.inl rfl

/-- The bytes of the buffer are bytes; in text modes the claim additionally needs 7-bit bytes. -/
def ByteOk (mode : Mode) (mem : Nat → Nat) (len : Nat) : Prop :=
  match mode with
  | .bin => True
  | .ebcdic => True
  | _ => Seven mem len ∧ mem 8691 ≠ cr

/-- One card: parsing ends, gives 80 columns and, except for a short binary card, consumes at
least one byte of a non-empty buffer; it leaves an array only in the text modes and only through a
byte above 127 (or the never written last byte). -/
theorem parseCard_total {mode mem len} (hl : len ≤ 8691) (hb : ∀ i, i < len → mem i < 256) :
    (∃ img o, parseCard mode mem len = .ok (img, o) ∧ img.length = 80 ∧
      ((∃ k, o = some k ∧ (0 < len → 0 < k)) ∨
       (o = none ∧ len < 160 ∧ (mode = .bin ∨ (mode = .auto ∧ len = 159))))) ∨
    (parseCard mode mem len = .oob ∧ ¬ ByteOk mode mem len) := by
  have text : ∀ m, (cardMode mode mem len = .ok m) → (m ≠ .bin ∧ m ≠ .ebcdic) → (mode ≠ .bin ∧ mode ≠ .ebcdic) →
      (∃ img o, parseCard mode mem len = .ok (img, o) ∧ img.length = 80 ∧
      ((∃ k, o = some k ∧ (0 < len → 0 < k)) ∨
       (o = none ∧ len < 160 ∧ (mode = .bin ∨ (mode = .auto ∧ len = 159))))) ∨
      (parseCard mode mem len = .oob ∧ ¬ ByteOk mode mem len) := by
    intro m hm hne hne2
    have hpc : parseCard mode mem len = (do let (img, i) ← parseText mem len; .ok (img, some i)) := by
      unfold parseCard; rw [hm]; cases m <;> simp_all
    rw [hpc]
    rcases parseText_total (mem := mem) hl with ⟨img, e, h1, h2, h3⟩ | ⟨h1, h2⟩
    · exact Or.inl ⟨img, some e, by simp [h1], h2, Or.inl ⟨e, rfl, h3⟩⟩
    · refine Or.inr ⟨by simp [h1], ?_⟩
      unfold ByteOk
      cases mode <;> simp_all
      all_goals
        intro hs
        rcases h2 with h2 | h2
        · exact absurd hs h2
        · exact h2
  cases mode with
  | text => exact text .text rfl (by simp) (by simp)
  | octal => exact text .octal rfl (by simp) (by simp)
  | bin =>
    left
    obtain ⟨img, o, h1, h2, h3⟩ := parseBin_total (mem := mem) (len := len)
    refine ⟨img, o, by simp [parseCard, cardMode, h1], h2, ?_⟩
    rcases h3 with ⟨h3, h4⟩ | ⟨h3, h4⟩
    · exact Or.inr ⟨h4, h3, Or.inl rfl⟩
    · exact Or.inl ⟨160, h4, by omega⟩
  | ebcdic =>
    left
    obtain ⟨img, i, h1, h2, h3⟩ := parseEbc_total (mem := mem) hl hb
    exact ⟨img, some i, by simp [parseCard, cardMode, h1], h2, Or.inl ⟨i, rfl, h3⟩⟩
  | auto =>
    rcases cardMode_auto (mem := mem) hl with h | ⟨h, h159⟩
    · exact text .text h (by simp) (by simp)
    · left
      obtain ⟨img, o, h1, h2, h3⟩ := parseBin_total (mem := mem) (len := len)
      refine ⟨img, o, by simp [parseCard, h, h1], h2, ?_⟩
      rcases h3 with ⟨h3, h4⟩ | ⟨h3, h4⟩
      · exact Or.inr ⟨h4, h3, Or.inr ⟨rfl, by omega⟩⟩
      · exact Or.inl ⟨160, h4, by omega⟩

end Verif.Card
