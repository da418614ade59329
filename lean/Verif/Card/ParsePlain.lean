import Verif.Card.ParseText
/- Plain text cards: punching and parsing printable text. -/
namespace Verif.Card

/-- The column punched for a printable character on an IBM 029, card.c 74-118. -/
def col029 (c : Nat) : Nat := asciiToHol029Tab.getD c 0

/-- Printable ASCII, blank to `~`. -/
def Printable (c : Nat) : Prop := 0x20 ≤ c ∧ c < 0x7f

/-- Lines with a meaning of their own in text format: `~` followed by blanks only, or `~raw`,
`~eor`, `~eof`, `~eoi` in any letter case. -/
def Special (s : List Nat) : Prop :=
  s.head? = some tilde ∧ ((∀ c ∈ s.tail, c = sp) ∨
    (s.tail.take 3).map toLower ∈ [[114, 97, 119], [101, 111, 114], [101, 111, 102], [101, 111, 105]])

/-- The character printed for a column: `^` and `{` share a column. -/
def canon (c : Nat) : Nat := if c = 94 then 123 else c

theorem col029_facts (c : Nat) (h : Printable c) :
    asciiToHol029Tab[c]? = some (col029 c) ∧ col029 c < 4096 ∧ textToHol c = some (col029 c) ∧
    holToAscii (col029 c) = some (canon c) ∧ col029 (canon c) = col029 c := by
  have key : ∀ c : Fin 0x7f, 0x20 ≤ c.val → asciiToHol029Tab[c.val]? = some (col029 c) ∧ col029 c < 4096 ∧
      textToHol c = some (col029 c) ∧ holToAscii (col029 c) = some (canon c) ∧ col029 (canon c) = col029 c := by
    decide +kernel
  exact key ⟨c, h.2⟩ h.1

theorem canon_printable {c : Nat} (h : Printable c) : Printable (canon c) := by
  unfold canon Printable at *; split <;> omega

theorem canon_eq {c x : Nat} (hx : x ≠ 94 ∧ x ≠ 123) : canon c = x ↔ c = x := by
  unfold canon; split <;> omega

theorem toLower_canon {c x : Nat} (hx : 97 ≤ x ∧ x ≤ 122) : toLower (canon c) = x ↔ toLower c = x := by
  unfold toLower canon; repeat' split
  all_goals omega

theorem asciiCols_spec : ∀ (s : List Nat), (∀ c ∈ s, Printable c) → asciiCols (s.map col029) = .ok (s.map canon) := by
  intro s
  induction s with
  | nil => intro _; rfl
  | cons c cs ih =>
    intro h
    have := (col029_facts c (h c (by simp))).2.2.2.1
    simp [asciiCols, this, look, ih (fun x hx => h x (by simp [hx]))]

theorem trim_spec (out : List Nat) : ∀ n, 0 < n → trim out n < n ∧
    (∀ k, trim out n < k → k < n → out[k]? = some sp) ∧ (trim out n = 0 ∨ out[trim out n]? ≠ some sp) := by
  intro n
  induction n with
  | zero => intro h; omega
  | succ n ih =>
    intro _
    unfold trim
    split
    · rename_i he
      cases n with
      | zero => exact ⟨by simp [trim], by intro k h1 h2; simp [trim] at h1; omega, Or.inl rfl⟩
      | succ n =>
        obtain ⟨h1, h2, h3⟩ := ih (by omega)
        refine ⟨by omega, ?_, h3⟩
        intro k hk hkn
        by_cases hke : k = n + 1
        · rw [hke]; exact he
        · exact h2 k hk (by omega)
    · rename_i he
      exact ⟨by omega, by intro k h1 h2; omega, Or.inr he⟩

/-- The line punched for a text card: its characters without trailing blanks (at least one). -/
theorem line_split (s : List Nat) (hl : s.length = 80) : ∃ cs k, s = cs ++ List.replicate k sp ∧ s.take (trim s 80 + 1) = cs ∧
    cs.length = trim s 80 + 1 ∧ cs.length + k = 80 ∧ (cs.length = 1 ∨ cs.getLast? ≠ some sp) := by
  obtain ⟨h1, h2, h3⟩ := trim_spec s 80 (by omega)
  refine ⟨s.take (trim s 80 + 1), 80 - (trim s 80 + 1), ?_, rfl, by simp; omega, by simp; omega, ?_⟩
  · conv => lhs; rw [← List.take_append_drop (trim s 80 + 1) s]
    congr 1
    apply List.ext_getElem?
    intro j
    rw [List.getElem?_drop, List.getElem?_replicate]
    split
    · exact h2 _ (by omega) (by omega)
    · exact List.getElem?_eq_none (by omega)
  · rcases h3 with h | h
    · left; simp [h]; omega
    · right
      rw [List.getLast?_eq_getElem?]
      simp only [List.length_take, hl]
      rw [show min (trim s 80 + 1) 80 - 1 = trim s 80 by omega, List.getElem?_take_of_lt (by omega)]
      exact h

/-- The text loop on a run of printable characters ended by a line feed. -/
theorem textLoop_spec {mem len} (hl : len ≤ 8691) : ∀ (cs pre : List Nat) (k n i : Nat), (∀ c ∈ cs, Printable c) →
    pre.length + cs.length + k = 80 → cs.length + 1 < n → i + cs.length < len → At mem i (cs ++ [lf]) →
    textLoop mem len n pre.length i (pre ++ List.replicate (cs.length + k) 0) =
      .ok (i + cs.length, pre ++ cs.map col029 ++ List.replicate k 0) := by
  intro cs
  induction cs with
  | nil =>
    intro pre k n i _ hp hn hi ha
    simp only [List.length_nil, Nat.add_zero] at hp hn hi
    obtain ⟨n, rfl⟩ : ∃ m, n = m + 2 := ⟨n - 2, by omega⟩
    simp only [List.nil_append, At_cons, At_nil, and_true] at ha
    have hrd := rdB_ok (mem := mem) (show i ≤ 8691 by omega)
    by_cases hc : pre.length < 80 ∧ i < len
    · simp [textLoop, hc, hrd, ha, lf, cr, tab]
    · simp [textLoop, hc]
  | cons c cs ih =>
    intro pre k n i hpr hp hn hi ha
    simp only [List.length_cons] at hp hn hi ⊢
    obtain ⟨n, rfl⟩ : ∃ m, n = m + 1 := ⟨n - 1, by omega⟩
    simp only [List.cons_append, At_cons] at ha
    have hrd := rdB_ok (mem := mem) (show i ≤ 8691 by omega)
    have hc : pre.length < 80 ∧ i < len := by omega
    have hcp := hpr c (by simp)
    obtain ⟨-, -, hth, -, -⟩ := col029_facts c hcp
    unfold Printable at hcp
    have c1 : ¬ (c = 0 ∨ c = cr) := by unfold cr; omega
    have c2 : ¬ c = tab := by unfold tab; omega
    have c3 : ¬ c = lf := by unfold lf; omega
    rw [show cs.length + 1 + k = (cs.length + k) + 1 by omega]
    simp only [textLoop, if_pos hc, hrd, Res.bind_ok, ha.1, if_neg c1, if_neg c2, if_neg c3, hth, look, setCol_append]
    have := ih (pre ++ [col029 c]) k n (i + 1) (fun x hx => hpr x (by simp [hx])) (by simp; omega) (by omega) (by omega) ha.2
    simp only [List.length_append, List.length_singleton] at this
    rw [this]
    simp
    omega

/-- Scan of a line starting with `~` that has a non-blank character. -/
theorem tildeScan_text {mem len} (hl : len ≤ 8691) : ∀ (cs : List Nat) (n i : Nat), (∀ c ∈ cs, Printable c) →
    (∃ c ∈ cs, c ≠ sp) → i + cs.length ≤ len → cs.length < n → At mem i cs →
    ∃ j, tildeScan mem len n 1 i = .ok (false, j) := by
  intro cs
  induction cs with
  | nil => intro n i _ h; simp at h
  | cons c cs ih =>
    intro n i hp he hi hn ha
    simp only [List.length_cons] at hi hn
    obtain ⟨n, rfl⟩ : ∃ m, n = m + 1 := ⟨n - 1, by omega⟩
    rw [At_cons] at ha
    have hrd := rdB_ok (mem := mem) (show i ≤ 8691 by omega)
    have hcp := hp c (by simp)
    unfold Printable at hcp
    have c1 : ¬ (c = lf ∨ c = 0 ∨ c = cr) := by unfold lf cr; omega
    have c2 : ¬ c = tab := by unfold tab; omega
    have hc : 1 < 80 ∧ i < len := by omega
    by_cases hs : c = sp
    · obtain ⟨j, hj⟩ := ih n (i + 1) (fun x hx => hp x (by simp [hx])) (by
        obtain ⟨x, hx1, hx2⟩ := he
        simp only [List.mem_cons] at hx1
        rcases hx1 with rfl | hx1
        · exact absurd hs hx2
        · exact ⟨x, hx1, hx2⟩) (by omega) (by omega) ha.2
      refine ⟨j, ?_⟩
      simp only [tildeScan, if_pos hc, hrd, Res.bind_ok, ha.1, if_neg c1, if_pos hs, hj]
    · exact ⟨i + 1, by simp only [tildeScan, if_pos hc, hrd, Res.bind_ok, ha.1, if_neg c1, if_neg hs, if_neg c2]⟩

theorem cmpCard_false {mem} (cs : List Nat) (ha : At mem 0 (cs ++ [lf])) (a b c : Nat) (hne : cs ≠ [])
    (hlet : 97 ≤ a ∧ 97 ≤ b ∧ 97 ≤ c) (h : cs.head? = some tilde → (cs.tail.take 3).map toLower ≠ [a, b, c]) :
    cmpCard mem a b c = false := by
  have hlf : toLower lf = 10 := by decide
  match cs, hne with
  | [x0], _ =>
    simp at ha
    simp [cmpCard, ha.1, ha.2, hlf]; omega
  | [x0, x1], _ =>
    simp at ha
    simp [cmpCard, ha.1, ha.2, hlf]; omega
  | [x0, x1, x2], _ =>
    simp at ha
    simp [cmpCard, ha.1, ha.2, hlf]; omega
  | x0 :: x1 :: x2 :: x3 :: r, _ =>
    simp at ha h
    simp [cmpCard, ha.1, ha.2]
    intro e1 e2 e3 e4
    exact h e1 e2 e3 e4

/-- Parsing the line of a text card. -/
theorem parseText_plain {mem len} (hl : len ≤ 8691) (cs : List Nat) (k : Nat) (hne : cs ≠ []) (hp : ∀ c ∈ cs, Printable c)
    (h80 : cs.length + k = 80) (hlast : cs.length = 1 ∨ cs.getLast? ≠ some sp) (hs : ¬ Special (cs ++ List.replicate k sp))
    (hlen : cs.length < len) (ha : At mem 0 (cs ++ [lf])) :
    parseText mem len = .ok (cs.map col029 ++ List.replicate k 0, cs.length + 1) := by
  have hbl : blank = [] ++ List.replicate (cs.length + k) 0 := by rw [h80]; rfl
  have ht := textLoop_spec (mem := mem) hl cs [] k (len + 2) 0 hp (by simpa using h80) (by omega) (by omega) ha
  rw [← hbl] at ht
  simp only [List.length_nil, List.nil_append, Nat.zero_add] at ht
  have hm : mem cs.length = lf := by
    rw [At_append] at ha; simpa using ha.2
  have he := endCard_lf (len := len) (show cs.length ≤ 8691 by omega) hm
  have hcmp : ∀ a b c, [a, b, c] ∈ [[114, 97, 119], [101, 111, 114], [101, 111, 102], [101, 111, 105]] → cmpCard mem a b c = false := by
    intro a b c habc
    apply cmpCard_false cs ha a b c hne
    · simp at habc; omega
    · intro hh heq
      apply hs
      obtain ⟨x, xs, rfl⟩ := List.exists_cons_of_ne_nil hne
      refine ⟨by simpa using hh, Or.inr ?_⟩
      have hx3 : 3 ≤ xs.length := by
        have := congrArg List.length heq
        simp at this
        omega
      simp only [List.cons_append, List.tail_cons] at heq ⊢
      rw [List.take_append_of_le_length hx3, heq]
      exact habc
  have hbody : textBody mem len = .ok (cs.length, cs.map col029 ++ List.replicate k 0) := by
    unfold textBody
    rw [hcmp _ _ _ (by simp), hcmp _ _ _ (by simp), hcmp _ _ _ (by simp), hcmp _ _ _ (by simp)]
    simpa using ht
  have hscan : ∃ j, (if mem 0 = tilde then tildeScan mem len (len + 1) 1 1 else .ok (false, 0)) = .ok (false, j) := by
    split
    · rename_i h0
      obtain ⟨x, xs, rfl⟩ := List.exists_cons_of_ne_nil hne
      simp only [List.cons_append, At_cons] at ha
      simp only [List.length_cons] at hlen h80
      apply tildeScan_text hl xs (len + 1) 1 (fun c hc => hp c (by simp [hc])) ?_ (by omega) (by omega) ?_
      · apply Classical.byContradiction
        intro hno
        apply hs
        refine ⟨by simp [← ha.1, h0], Or.inl ?_⟩
        intro c hc
        simp only [List.cons_append, List.tail_cons, List.mem_append, List.mem_replicate] at hc
        rcases hc with hc | hc
        · exact Classical.byContradiction fun hcs => hno ⟨c, hc, hcs⟩
        · exact hc.2
      · have := ha.2
        rw [At_append] at this
        exact this.1
    · exact ⟨0, rfl⟩
  obtain ⟨j, hj⟩ := hscan
  unfold parseText
  by_cases h0 : mem 0 = tilde
  · rw [if_pos h0] at hj
    simp [h0, hj, hbody, he]
  · simp [h0, hbody, he]

/-- A card typed from 80 printable characters. -/
def cardOf (s : List Nat) : Img := s.map col029

theorem special_canon (s : List Nat) : Special (s.map canon) ↔ Special s := by
  cases s with
  | nil => simp [Special]
  | cons x xs =>
    unfold Special
    simp only [List.map_cons, List.head?_cons, Option.some.injEq, List.tail_cons]
    rw [canon_eq (show tilde ≠ 94 ∧ tilde ≠ 123 by decide)]
    have h1 : (∀ c ∈ xs.map canon, c = sp) ↔ ∀ c ∈ xs, c = sp := by
      simp only [List.mem_map, forall_exists_index, and_imp, forall_apply_eq_imp_iff₂]
      constructor
      · intro h c hc; exact (canon_eq (by decide)).1 (h c hc)
      · intro h c hc; exact (canon_eq (by decide)).2 (h c hc)
    have h2 : ∀ a b c, 97 ≤ a ∧ a ≤ 122 → 97 ≤ b ∧ b ≤ 122 → 97 ≤ c ∧ c ≤ 122 →
        ((((xs.map canon).take 3).map toLower = [a, b, c]) ↔ (xs.take 3).map toLower = [a, b, c]) := by
      intro a b c ha hb hc
      match xs with
      | [] => simp
      | [y] => simp
      | [y, z] => simp
      | y :: z :: w :: r =>
        simp [toLower_canon ha, toLower_canon hb, toLower_canon hc]
    rw [h1]
    simp only [List.mem_cons, List.not_mem_nil, or_false]
    rw [h2 _ _ _ (by decide) (by decide) (by decide), h2 _ _ _ (by decide) (by decide) (by decide),
      h2 _ _ _ (by decide) (by decide) (by decide), h2 _ _ _ (by decide) (by decide) (by decide)]

/-- A text line that automatic mode cannot mistake for a binary card: some character in an odd
column has a non-zero low digit. -/
def AutoSafe (s : List Nat) : Prop := ∃ k c : Nat, s[2 * k]? = some c ∧ c % 16 ≠ 0

theorem Parses_text {mode : Mode} (s : List Nat) (hl : s.length = 80) (hp : ∀ c ∈ s, Printable c) (hs : ¬ Special s)
    (hm : mode = .text ∨ mode = .octal ∨ (mode = .auto ∧ AutoSafe s)) :
    ∃ b, punchText (cardOf s) = .ok b ∧ Parses mode (cardOf s) b := by
  have hcl : (s.map canon).length = 80 := by simpa using hl
  obtain ⟨cs, k, e1, e2, e3, e4, e5⟩ := line_split (s.map canon) hcl
  have hpc : ∀ c ∈ s.map canon, Printable c := by
    intro c hc
    rw [List.mem_map] at hc
    obtain ⟨x, hx, rfl⟩ := hc
    exact canon_printable (hp x hx)
  have hff : (s.map canon).map (fun a => if a = 0xff then 63 else a) = s.map canon := by
    conv => rhs; rw [← List.map_id (s.map canon)]
    apply List.map_congr_left
    intro a ha
    have := hpc a ha
    unfold Printable at this
    rw [if_neg (by omega)]; rfl
  have himg : cardOf s = cs.map col029 ++ List.replicate k 0 := by
    have h1 : cardOf s = (s.map canon).map col029 := by
      rw [List.map_map]
      apply List.map_congr_left
      intro c hc
      exact (col029_facts c (hp c hc)).2.2.2.2.symm
    rw [h1, e1, List.map_append, List.map_replicate]
    congr 2
  have hcsp : ∀ c ∈ cs, Printable c := fun c hc => hpc c (by rw [e1]; simp [hc])
  have hne : cs ≠ [] := by intro h; rw [h] at e3; simp at e3
  refine ⟨cs ++ [lf], ?_, ?_⟩
  · unfold punchText
    rw [show cardOf s = s.map col029 from rfl, asciiCols_spec s hp]
    simp only [Res.bind_ok, hff, e2]
  refine ⟨by simp, by simp; omega, ?_⟩
  intro mem len g1 g2 g3
  have hat := At_of_getElem (mem := mem) (b := cs ++ [lf]) (i := 0) (by simpa using g3)
  simp only [List.length_append, List.length_singleton] at g1
  have hsp : ¬ Special (cs ++ List.replicate k sp) := by rw [← e1, special_canon]; exact hs
  have hpt := parseText_plain g2 cs k hne hcsp e4 e5 hsp (by omega) hat
  rw [← himg] at hpt
  have htl : TextLike mode mem len := by
    rcases hm with h | h | ⟨h, j, c, hc1, hc2⟩
    · exact Or.inl h
    · exact Or.inr (Or.inl h)
    · right; right
      have hj : 2 * j < 80 := by
        rw [List.getElem?_eq_some_iff] at hc1
        obtain ⟨hx, -⟩ := hc1
        omega
      have hcan : canon c % 16 ≠ 0 := by unfold canon; split <;> omega
      have hcj : (s.map canon)[2 * j]? = some (canon c) := by simp [hc1]
      have hjl : 2 * j < cs.length := by
        apply Classical.byContradiction
        intro hn
        rw [e1, List.getElem?_append_right (by omega), List.getElem?_replicate] at hcj
        split at hcj
        · simp only [Option.some.injEq] at hcj
          rw [← hcj] at hcan
          simp [sp] at hcan
        · cases hcj
      refine ⟨h, j, by omega, by omega, ?_⟩
      have := g3 (2 * j) (by simp; omega)
      rw [this, List.getElem_append_left hjl]
      rw [e1, List.getElem?_append_left hjl, List.getElem?_eq_getElem hjl] at hcj
      simp only [Option.some.injEq] at hcj
      rw [hcj, show (0xf : Nat) = 2 ^ 4 - 1 from rfl, Nat.and_two_pow_sub_one_eq_mod]
      exact hcan
  rw [parseCard_text g2 htl hpt]
  simp

end Verif.Card
