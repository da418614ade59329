import Verif.Card.Parse
/- Parsing text lines: octal cards and plain text cards. -/
namespace Verif.Card

theorem rdB_ok {mem i} (h : i ≤ 8691) : rdB mem i = .ok (mem i) := by
  unfold rdB bufSize; rw [if_pos (by omega)]

/-- A line feed ends the card right there. -/
theorem endCard_lf {mem len i} (hi : i ≤ 8691) (h : mem i = lf) : endCard mem len i = .ok (i + 1) := by
  simp [endCard, lineEnd, rdB_ok hi, h, lf, cr]

/-! ### Automatic mode selection -/

theorem autoScan_spec {mem len} (hl : len ≤ 8691) : ∀ (n i t : Nat), ∃ i' t', autoScan mem len n i t = .ok (i', t') ∧
    (t' &&& 0xf = 0 → t &&& 0xf = 0 ∧ ∀ k, k < n → i + 2 * k < 160 → i + 2 * k < len → mem (i + 2 * k) &&& 0xf = 0) := by
  intro n
  induction n with
  | zero => intro i t; exact ⟨i, t, rfl, fun h => ⟨h, by omega⟩⟩
  | succ n ih =>
    intro i t
    by_cases hc : i < 160 ∧ i < len
    · obtain ⟨i', t', h1, h2⟩ := ih (i + 2) (t ||| mem i)
      refine ⟨i', t', ?_, ?_⟩
      · simp only [autoScan, if_pos hc, rdB_ok (show i ≤ 8691 by omega), Res.bind_ok, h1]
      · intro h
        obtain ⟨h3, h4⟩ := h2 h
        rw [Nat.and_or_distrib_right, Nat.or_eq_zero_iff] at h3
        refine ⟨h3.1, ?_⟩
        intro k hk k1 k2
        cases k with
        | zero => exact h3.2
        | succ k =>
          have := h4 k (by omega) (by omega) (by omega)
          rw [← this]; congr 2; omega
    · refine ⟨i, t, by simp only [autoScan, if_neg hc], fun h => ⟨h, ?_⟩⟩
      intro k _ k1 k2
      omega

/-- The buffer is not taken for a binary card in automatic mode. -/
def TextLike (mode : Mode) (mem : Nat → Nat) (len : Nat) : Prop :=
  mode = .text ∨ mode = .octal ∨ (mode = .auto ∧ ∃ k, 2 * k < 160 ∧ 2 * k < len ∧ mem (2 * k) &&& 0xf ≠ 0)

theorem parseCard_text {mode mem len} (hl : len ≤ 8691) (h : TextLike mode mem len) {img : Img} {i : Nat}
    (hp : parseText mem len = .ok (img, i)) : parseCard mode mem len = .ok (img, some i) := by
  rcases h with rfl | rfl | ⟨rfl, k, k1, k2, k3⟩
  · simp [parseCard, cardMode, hp]
  · simp [parseCard, cardMode, hp]
  · obtain ⟨i', t', h1, h2⟩ := autoScan_spec (mem := mem) hl 81 0 0
    have : ¬ (t' &&& 15 = 0) := fun hz => k3 (by simpa using (h2 hz).2 k (by omega) (by omega) (by omega))
    simp [parseCard, cardMode, h1, this, hp]

/-! ### Octal cards -/

theorem getCol_append (pre post : List Nat) (v : Nat) : getCol (pre ++ v :: post) pre.length = .ok v := by
  simp [getCol, look]

theorem setCol_append' (pre post : List Nat) (v w : Nat) :
    setCol (pre ++ v :: post) pre.length w = .ok (pre ++ w :: post) := by
  unfold setCol
  rw [if_pos (by simp)]
  simp

theorem rawDigit {mem len n j i d} {pre post : List Nat} {v : Nat} (hd : d < 8) (hm : mem i = d + 48) (hi : i < len)
    (hl : len ≤ 8691) (hp : pre.length < 80) :
    rawLoop mem len (n + 1) pre.length j i (pre ++ v :: post) =
      if j + 1 = 4 then rawLoop mem len n (pre.length + 1) 0 (i + 1) (pre ++ (((v <<< 3) % 65536) ||| d) :: post)
      else rawLoop mem len n pre.length (j + 1) (i + 1) (pre ++ (((v <<< 3) % 65536) ||| d) :: post) := by
  have h1 : 48 ≤ d + 48 ∧ d + 48 ≤ 55 := by omega
  simp only [rawLoop, if_pos (And.intro hp hi), rdB_ok (show i ≤ 8691 by omega), Res.bind_ok, hm, if_pos h1,
    getCol_append, setCol_append', Nat.add_sub_cancel]

theorem oct_col (c : Nat) (h : c < 4096) :
    (((((((((0 <<< 3) % 65536) ||| ((c >>> 9) &&& 7)) <<< 3) % 65536) ||| ((c >>> 6) &&& 7)) <<< 3) % 65536 |||
      ((c >>> 3) &&& 7)) <<< 3) % 65536 ||| (c &&& 7) = c :=
  forall12 (p := fun c => (((((((((0 <<< 3) % 65536) ||| ((c >>> 9) &&& 7)) <<< 3) % 65536) ||| ((c >>> 6) &&& 7)) <<< 3) % 65536 |||
      ((c >>> 3) &&& 7)) <<< 3) % 65536 ||| (c &&& 7) = c) (by decide +kernel) c h

theorem and7 (x : Nat) : x &&& 7 < 8 := Nat.lt_of_le_of_lt Nat.and_le_right (by decide)

theorem rawLoop_spec {mem len} (hl : len ≤ 8691) : ∀ (cs pre : List Nat) (n i : Nat), (∀ c ∈ cs, c < 4096) →
    pre.length + cs.length = 80 → 4 * cs.length < n → i + 4 * cs.length ≤ len → At mem i (cs.flatMap octCol) →
    rawLoop mem len n pre.length 0 i (pre ++ List.replicate cs.length 0) = .ok (i + 4 * cs.length, pre ++ cs) := by
  intro cs
  induction cs with
  | nil =>
    intro pre n i _ hp hn _ _
    obtain ⟨n, rfl⟩ : ∃ k, n = k + 1 := ⟨n - 1, by simp at hn; omega⟩
    have : ¬ (pre.length < 80 ∧ i < len) := by simp at hp; omega
    simp [rawLoop, this]
  | cons c cs ih =>
    intro pre n i hc hp hn hi ha
    simp only [List.length_cons] at hp hn hi ⊢
    obtain ⟨n, rfl⟩ : ∃ k, n = k + 4 := ⟨n - 4, by omega⟩
    simp only [List.flatMap_cons, octCol, List.cons_append, List.nil_append, At_cons] at ha
    obtain ⟨a1, a2, a3, a4, a5⟩ := ha
    rw [List.replicate_succ]
    have hpl : pre.length < 80 := by omega
    rw [rawDigit (and7 _) a1 (by omega) hl hpl, if_neg (by omega),
      rawDigit (and7 _) a2 (by omega) hl hpl, if_neg (by omega),
      rawDigit (and7 _) a3 (by omega) hl hpl, if_neg (by omega),
      rawDigit (and7 _) a4 (by omega) hl hpl, if_pos rfl, oct_col c (hc c (by simp))]
    have := ih (pre ++ [c]) n (i + 1 + 1 + 1 + 1) (fun x hx => hc x (by simp [hx])) (by simp; omega) (by omega) (by omega) a5
    simp only [List.length_append, List.length_singleton, List.append_assoc, List.singleton_append] at this
    rw [this]
    congr 2
    omega

theorem flatMap_oct_length (cs : List Nat) : (cs.flatMap octCol).length = 4 * cs.length := by
  induction cs with
  | nil => rfl
  | cons c cs ih => simp only [List.flatMap_cons, List.length_append, octCol, List.length_cons, List.length_nil] at ih ⊢; omega

theorem tildeScan_stop {mem len c} (hl : len ≤ 8691) (h1 : 1 < len) (hm : mem 1 = c) (hc : c ≠ lf ∧ c ≠ 0 ∧ c ≠ cr ∧ c ≠ sp ∧ c ≠ tab) :
    tildeScan mem len (len + 1) 1 1 = .ok (false, 2) := by
  obtain ⟨c1, c2, c3, c4, c5⟩ := hc
  simp [tildeScan, h1, rdB_ok (show 1 ≤ 8691 by omega), hm, c1, c2, c3, c4, c5]

theorem parseText_raw {mem len} (img : Img) (h : img.Ok) (hl : len ≤ 8691) (hlen : 325 ≤ len)
    (ha : At mem 0 ([tilde, 114, 97, 119] ++ img.flatMap octCol ++ [lf])) : parseText mem len = .ok (img, 325) := by
  rw [At_append, At_append] at ha
  obtain ⟨⟨a1, a2⟩, a3⟩ := ha
  simp only [At_cons, At_nil, and_true] at a1 a3
  obtain ⟨m0, m1, m2, m3⟩ := a1
  simp only [List.length_append, flatMap_oct_length, h.1, List.length_cons, List.length_nil] at a2 a3
  have hs := tildeScan_stop hl (by omega) m1 (by decide)
  have hc : cmpCard mem 114 97 119 = true := by
    simp only [Nat.zero_add] at m1 m2 m3
    simp [cmpCard, m0, m1, m2, m3, toLower]
  have hr := rawLoop_spec (mem := mem) hl img [] (len + 1) 4 h.2 (by simp [h.1]) (by rw [h.1]; omega) (by rw [h.1]; omega)
    (by simpa using a2)
  rw [h.1] at hr
  have hr' : rawLoop mem len (len + 1) 0 0 4 blank = .ok (324, img) := hr
  have he := endCard_lf (len := len) (show 324 ≤ 8691 by omega) a3
  simp only [parseText, m0, if_true, hs, Res.bind_ok, textBody, hc, hr', he]
  simp

theorem parseText_eo {mem len} (x v : Nat) (hl : len ≤ 8691) (hlen : 5 ≤ len)
    (ha : At mem 0 [tilde, 101, 111, x, lf]) (hx : (x = 114 ∧ v = 0o7) ∨ (x = 102 ∧ v = 0o15) ∨ (x = 105 ∧ v = 0o17)) :
    parseText mem len = .ok (blank.set 0 v, 5) := by
  simp only [At_cons, At_nil, and_true, Nat.zero_add] at ha
  obtain ⟨m0, m1, m2, m3, m4⟩ := ha
  have hs := tildeScan_stop hl (by omega) m1 (by decide)
  have he := endCard_lf (len := len) (show 4 ≤ 8691 by omega) m4
  have hb : textBody mem len = .ok (4, blank.set 0 v) := by
    rcases hx with ⟨rfl, rfl⟩ | ⟨rfl, rfl⟩ | ⟨rfl, rfl⟩ <;>
      simp [textBody, cmpCard, m0, m1, m2, m3, toLower]
  simp only [parseText, m0, if_true, hs, Res.bind_ok, hb, he]
  simp

theorem lastPunched_spec (img : Img) : ∀ n k, lastPunched img n = some k → k < n ∧ img[k]? ≠ some 0 ∧
    ∀ j, k < j → j < n → img[j]? = some 0 := by
  intro n
  induction n with
  | zero => intro k h; cases h
  | succ n ih =>
    intro k h
    unfold lastPunched at h
    split at h
    · cases h
      rename_i hn
      exact ⟨by omega, hn, by omega⟩
    · rename_i hn
      obtain ⟨h1, h2, h3⟩ := ih k h
      refine ⟨by omega, h2, ?_⟩
      intro j hj hjn
      by_cases hje : j = n
      · subst hje; simpa using hn
      · exact h3 j hj (by omega)

/-- A card punched in column 1 only. -/
theorem single_of_lastPunched {img : Img} (h : img.length = 80) (hp : lastPunched img 80 = some 0) {c : Nat}
    (hc : img[0]? = some c) : img = blank.set 0 c ∧ c ≠ 0 := by
  obtain ⟨-, h2, h3⟩ := lastPunched_spec img 80 0 hp
  refine ⟨?_, fun e => h2 (by rw [hc, e])⟩
  apply List.ext_getElem?
  intro j
  rw [List.getElem?_set]
  by_cases hj : j = 0
  · subst hj; simp [hc, blank]
  · rw [if_neg (by omega)]
    by_cases hl : j < 80
    · rw [h3 j (by omega) hl, blank, List.getElem?_replicate, if_pos hl]
    · simp [blank, hl, h]

/-- Cards that octal format cannot represent: only column 1 punched, not one of the three marks. -/
def Img.OctalBad (img : Img) : Prop := ∃ c, c ≠ 0 ∧ c ≠ 0o7 ∧ c ≠ 0o15 ∧ c ≠ 0o17 ∧ img = c :: List.replicate 79 0

theorem lastPunched_single {c : Nat} (hc : c ≠ 0) : lastPunched (c :: List.replicate 79 0) 80 = some 0 := by
  have : ∀ n, lastPunched (c :: List.replicate 79 0) (n + 1) = some 0 ∨ 79 < n := by
    intro n
    induction n with
    | zero => left; simp [lastPunched, hc]
    | succ n ih =>
      rcases ih with h | h
      · by_cases hn : n < 79
        · left
          unfold lastPunched
          rw [if_neg, h]
          simp only [List.getElem?_cons_succ, List.getElem?_replicate, if_pos hn]
          simp
        · right; omega
      · right; omega
  rcases this 79 with h | h
  · exact h
  · omega

theorem getCol_zero {img : Img} (h : img.length = 80) : ∃ c, img[0]? = some c ∧ getCol img 0 = .ok c := by
  have : 0 < img.length := by omega
  exact ⟨img[0], by simp [this], by simp [getCol, this, look]⟩

theorem Parses_octal {mode : Mode} (hm : mode = .text ∨ mode = .octal ∨ mode = .auto) (img : Img) (h : img.Ok) (hb : ¬ img.OctalBad) :
    ∃ b, punchOctal img = .ok b ∧ Parses mode img b := by
  obtain ⟨c, c1, c2⟩ := getCol_zero h.1
  have htl : ∀ mem len, 0 < len → mem 0 = tilde → TextLike mode mem len := by
    intro mem len h0 h1
    rcases hm with rfl | rfl | rfl
    · exact Or.inl rfl
    · exact Or.inr (Or.inl rfl)
    · exact Or.inr (Or.inr ⟨rfl, 0, by omega, by omega, by rw [show 2 * 0 = 0 from rfl, h1]; decide⟩)
  by_cases hs : lastPunched img 80 = some 0
  · obtain ⟨e1, e2⟩ := single_of_lastPunched h.1 hs c1
    have hx : c = 0o7 ∨ c = 0o15 ∨ c = 0o17 := by
      by_cases hx : c = 0o7 ∨ c = 0o15 ∨ c = 0o17
      · exact hx
      · exfalso; apply hb; refine ⟨c, e2, by omega, by omega, by omega, ?_⟩; rw [e1]; rfl
    have go : ∀ x, ((x = 114 ∧ c = 0o7) ∨ (x = 102 ∧ c = 0o15) ∨ (x = 105 ∧ c = 0o17)) →
        Parses mode img [tilde, 101, 111, x, lf] := by
      intro x hx
      refine ⟨by simp, by simp, ?_⟩
      intro mem len g1 g2 g3
      have hat := At_of_getElem (mem := mem) (b := [tilde, 101, 111, x, lf]) (i := 0) (by simpa using g3)
      have hp := parseText_eo x c g2 (by simpa using g1) hat hx
      rw [← e1] at hp
      have := parseCard_text g2 (htl mem len (by simp at g1; omega) hat.1) hp
      rw [this]; rfl
    rcases hx with rfl | rfl | rfl
    · exact ⟨_, by simp [punchOctal, c2, hs], go 114 (by decide)⟩
    · exact ⟨_, by simp [punchOctal, c2, hs], go 102 (by decide)⟩
    · exact ⟨_, by simp [punchOctal, c2, hs], go 105 (by decide)⟩
  · refine ⟨[tilde, 114, 97, 119] ++ img.flatMap octCol ++ [lf], by simp [punchOctal, c2, hs], ?_⟩
    have hlen : ([tilde, 114, 97, 119] ++ img.flatMap octCol ++ [lf]).length = 325 := by
      simp only [List.length_append, flatMap_oct_length, h.1, List.length_cons, List.length_nil]
    refine ⟨by omega, by omega, ?_⟩
    intro mem len g1 g2 g3
    have hat := At_of_getElem (mem := mem) (b := [tilde, 114, 97, 119] ++ img.flatMap octCol ++ [lf]) (i := 0) (by simpa using g3)
    have hp := parseText_raw img h g2 (by omega) hat
    have := parseCard_text g2 (htl mem len (by omega) (by
      rw [At_append, At_append] at hat; exact hat.1.1.1)) hp
    rw [this, hlen]

theorem lineEnd_scan {mem len} (hl : len ≤ 8691) : ∀ (xs : List Nat) (n i : Nat), (∀ x ∈ xs, x ≠ lf ∧ x ≠ cr) →
    At mem i (xs ++ [lf]) → i + xs.length < len → xs.length < n → lineEnd mem len n i = .ok (i + xs.length) := by
  intro xs
  induction xs with
  | nil =>
    intro n i _ ha hi hn
    obtain ⟨n, rfl⟩ : ∃ k, n = k + 1 := ⟨n - 1, by simp at hn; omega⟩
    simp at ha hi
    simp [lineEnd, rdB_ok (show i ≤ 8691 by omega), ha]
  | cons x xs ih =>
    intro n i hx ha hi hn
    simp only [List.length_cons] at hi hn
    obtain ⟨n, rfl⟩ : ∃ k, n = k + 1 := ⟨n - 1, by omega⟩
    simp only [List.cons_append, At_cons] at ha
    have h1 := hx x (by simp)
    have h2 : i < len := by omega
    have := ih n (i + 1) (fun y hy => hx y (by simp [hy])) ha.2 (by omega) (by omega)
    simp only [lineEnd, rdB_ok (show i ≤ 8691 by omega), Res.bind_ok, ha.1, h1, h2, ne_eq, not_false_eq_true, and_self, if_true, this,
      List.length_cons]
    congr 1; omega

theorem endCard_scan {mem len} (hl : len ≤ 8691) (xs : List Nat) (i : Nat) (hx : ∀ x ∈ xs, x ≠ lf ∧ x ≠ cr)
    (ha : At mem i (xs ++ [lf])) (hi : i + xs.length < len) : endCard mem len i = .ok (i + xs.length + 1) := by
  rw [At_append] at ha
  have h := lineEnd_scan hl xs (len + 2) i hx (At_append.2 ha) hi (by omega)
  have hm : mem (i + xs.length) = lf := ha.2.1
  simp only [endCard, h, Res.bind_ok, rdB_ok (show i + xs.length ≤ 8691 by omega), hm]
  simp [lf, cr, rdB_ok (show i + xs.length ≤ 8691 by omega), hm]

/-- What a card that octal format cannot represent turns into: a 7/8/9 card. -/
theorem Parses_octalBad {mode : Mode} (hm : mode = .text ∨ mode = .octal ∨ mode = .auto) (img : Img) (h : img.Ok) (hb : img.OctalBad) :
    ∃ b, punchOctal img = .ok b ∧ Parses mode (0o7 :: List.replicate 79 0) b := by
  have hb' := hb
  obtain ⟨c, b1, b2, b3, b4, hi⟩ := hb
  have hlp : lastPunched img 80 = some 0 := by rw [hi]; exact lastPunched_single b1
  have hg : getCol img 0 = .ok c := by rw [hi]; rfl
  refine ⟨[tilde, 101, 111, 114] ++ ([97, 119] ++ img.flatMap octCol) ++ [lf], ?_, ?_⟩
  · simp [punchOctal, hg, hlp, b2, b3, b4]
  have hlen : ([tilde, 101, 111, 114] ++ ([97, 119] ++ img.flatMap octCol) ++ [lf]).length = 327 := by
    simp only [List.length_append, flatMap_oct_length, h.1, List.length_cons, List.length_nil]
  refine ⟨by omega, by omega, ?_⟩
  intro mem len g1 g2 g3
  have hat := At_of_getElem (mem := mem) (i := 0) (b := [tilde, 101, 111, 114] ++ ([97, 119] ++ img.flatMap octCol) ++ [lf]) (by simpa using g3)
  rw [List.append_assoc, At_append] at hat
  obtain ⟨a1, a2⟩ := hat
  simp only [At_cons, At_nil, and_true, Nat.zero_add] at a1
  obtain ⟨m0, m1, m2, m3⟩ := a1
  have hs := tildeScan_stop g2 (by omega) m1 (by decide)
  have he := endCard_scan (mem := mem) g2 ([97, 119] ++ img.flatMap octCol) 4 (by
    intro x hx
    have hoct : ∀ c, ∀ y ∈ octCol c, 48 ≤ y := by
      intro c y hy
      simp only [octCol, List.mem_cons, List.not_mem_nil, or_false] at hy
      omega
    simp only [List.mem_append, List.mem_cons, List.not_mem_nil, or_false, List.mem_flatMap] at hx
    unfold lf cr
    rcases hx with hx | ⟨y, -, hy⟩
    · omega
    · have := hoct y x hy; omega) (by simpa using a2) (by
      simp only [List.length_append, flatMap_oct_length, h.1, List.length_cons, List.length_nil]; omega)
  have hb : textBody mem len = .ok (4, blank.set 0 0o7) := by
    simp [textBody, cmpCard, m0, m1, m2, m3, toLower]
  have hp : parseText mem len = .ok (blank.set 0 0o7, 327) := by
    simp only [parseText, m0, if_true, hs, Res.bind_ok, hb, he]
    simp only [List.length_append, flatMap_oct_length, h.1, List.length_cons, List.length_nil]
    simp
  have htl : TextLike mode mem len := by
    rcases hm with rfl | rfl | rfl
    · exact Or.inl rfl
    · exact Or.inr (Or.inl rfl)
    · exact Or.inr (Or.inr ⟨rfl, 0, by omega, by omega, by rw [show 2 * 0 = 0 from rfl, m0]; decide⟩)
  rw [parseCard_text g2 htl hp, hlen]
  rfl

end Verif.Card
