import Verif.Conf.Parse
/-! # Properties of the configuration parser -/
namespace Verif.Conf

def chars (s : String) : List Nat := s.toList.map Char.toNat

def opt0 : Opt := { opt := [], flags := 0, model := 0, dash := 0, slash := 0, addr := 0, str := [] }

/-! ## Addresses (C34) -/

theorem hexLoop_word : ∀ (w acc : List Nat) (c : Nat) (l : List Nat), (∀ x ∈ w, isxdigit x = true) →
    acc.length + w.length ≤ 20 → isxdigit c = false →
    hexLoop (w ++ c :: l) acc = .ok (acc ++ w.map toupper, c :: l) := by
  intro w
  induction w with
  | nil => intro acc c l _ _ hc; rw [List.nil_append, hexLoop, if_neg (by simp [hc])]; simp
  | cons x w ih =>
    intro acc c l hw hl hc
    simp only [List.length_cons] at hl
    rw [List.cons_append, hexLoop, if_pos (hw x (by simp)), if_pos (by omega),
      ih _ c l (fun y hy => hw y (by simp [hy])) (by simp; omega) hc]
    simp

theorem hexLoop_long : ∀ (w acc : List Nat) (l : List Nat), (∀ x ∈ w, isxdigit x = true) →
    acc.length ≤ 20 → acc.length + w.length > 20 → hexLoop (w ++ l) acc = .oob := by
  intro w
  induction w with
  | nil => intro acc l _ h1 h2; simp at h2; omega
  | cons x w ih =>
    intro acc l hw h1 h2
    simp only [List.length_cons] at h2
    rw [List.cons_append, hexLoop, if_pos (hw x (by simp))]
    split
    · exact ih _ l (fun y hy => hw y (by simp [hy])) (by simp; omega) (by simp; omega)
    · rfl

theorem hexStep_eq (i c : Nat) (h : isxdigit c = true) : hexStep i (toupper c) = (i * 16 + hexDigit c) % 4294967296 := by
  have hv : (if isalpha (toupper c) then toupper c - 65 + 10 else toupper c - 48) = hexDigit c := by
    rw [xdigit_iff] at h
    unfold hexDigit toupper
    by_cases h1 : 97 ≤ c ∧ c ≤ 122
    · rw [if_pos h1, if_pos (by rw [alpha_iff]; omega), if_neg (by omega), if_neg (by omega)]; omega
    · rw [if_neg h1]
      by_cases h2 : c ≤ 57
      · rw [if_neg (by rw [alpha_iff]; omega), if_pos h2]
      · rw [if_pos (by rw [alpha_iff]; omega), if_neg h2, if_pos (by omega)]; omega
  unfold hexStep
  rw [hv, Nat.mod_add_mod]

theorem hexFold : ∀ (w : List Nat) (i : Nat), (∀ x ∈ w, isxdigit x = true) →
    (w.map toupper).foldl hexStep i % 65536 = (i * 16 ^ w.length + hexNum w) % 65536 := by
  intro w
  induction w with
  | nil => intro i _; simp [hexNum]
  | cons x w ih =>
    intro i hw
    rw [List.map_cons, List.foldl_cons, hexStep_eq i x (hw x (by simp)), ih _ (fun y hy => hw y (by simp [hy]))]
    rw [List.length_cons, hexNum, Nat.pow_succ]
    have e1 : (i * 16 + hexDigit x) % 4294967296 % 65536 = (i * 16 + hexDigit x) % 65536 :=
      Nat.mod_mod_of_dvd _ (by decide)
    have e2 : i * (16 ^ w.length * 16) + (hexDigit x * 16 ^ w.length + hexNum w) =
        (i * 16 + hexDigit x) * 16 ^ w.length + hexNum w := by
      rw [Nat.add_mul]; rw [Nat.mul_comm (16 ^ w.length) 16, Nat.mul_assoc]; omega
    rw [e2, Nat.add_mod, Nat.mul_mod, e1, ← Nat.mul_mod, ← Nat.add_mod]

/-- C34: blanks and 1 to 19 hexadecimal digits parse to the value of the numeral, as a 16 bit address, and the parser
stops behind the digits.  Missing: longer numerals (`C34_violated_long`). -/
theorem C34_address_partial (o : Opt) (ws ds : List Nat) (c : Nat) (l : List Nat) (hws : ∀ x ∈ ws, isspace x = true)
    (hne : ds ≠ []) (hds : ∀ x ∈ ds, isxdigit x = true) (hl : ds.length < 20) (hc : isxdigit c = false) :
    getAddr o (ws ++ ds ++ c :: l) = .ok (true, { o with addr := hexNum ds % 65536 }, c :: l) := by
  obtain ⟨x, n, rfl⟩ : ∃ x n, ds = x :: n := by
    cases ds with | nil => exact absurd rfl hne | cons x n => exact ⟨x, n, rfl⟩
  have hx := hds x (by simp)
  rw [xdigit_iff] at hx
  have hsp : isspace x = false := by
    cases q : isspace x
    · rfl
    · rw [space_iff] at q; omega
  unfold getAddr
  rw [List.append_assoc, skip_spaces ws hws, List.cons_append, skip_stop x _ hsp]
  simp only [bind_ok]
  rw [show atEnd (x :: (n ++ c :: l)) = false by simp [atEnd]; omega, ← List.cons_append,
    hexLoop_word (x :: n) [] c l hds (by simp only [List.length_nil]; omega) hc]
  simp only [bind_ok, List.nil_append, List.length_map, Bool.false_eq_true, if_false]
  rw [if_neg (by omega), if_neg (by simp), hexFold _ _ hds]
  simp

example : getAddr opt0 (chars "  0c1 7track" ++ [0]) = .ok (true, { opt0 with addr := 0xc1 }, chars " 7track" ++ [0]) := rfl
example : hexNum (chars "0c1") = 0xc1 := rfl

/-- C34: without a digit there is no address. -/
theorem C34_no_address (o : Opt) (ws : List Nat) (c : Nat) (l : List Nat) (hws : ∀ x ∈ ws, isspace x = true)
    (hc : isxdigit c = false) (hs : isspace c = false) : getAddr o (ws ++ c :: l) = .ok (false, o, c :: l) := by
  unfold getAddr
  rw [skip_spaces ws hws, skip_stop c _ hs]
  simp only [bind_ok]
  split
  · rfl
  · rw [hexLoop, if_neg (by simp [hc])]; rfl

/-- C34, C37 fail for every numeral of 20 digits or more. -/
theorem C34_violated_long (o : Opt) (ws ds : List Nat) (c : Nat) (l : List Nat) (hws : ∀ x ∈ ws, isspace x = true)
    (hds : ∀ x ∈ ds, isxdigit x = true) (hl : ds.length ≥ 20) (hc : isxdigit c = false) :
    getAddr o (ws ++ ds ++ c :: l) = .oob := by
  obtain ⟨x, n, rfl⟩ : ∃ x n, ds = x :: n := by
    cases ds with | nil => simp at hl | cons x n => exact ⟨x, n, rfl⟩
  have hx := hds x (by simp)
  rw [xdigit_iff] at hx
  have hsp : isspace x = false := by
    cases q : isspace x
    · rfl
    · rw [space_iff] at q; omega
  unfold getAddr
  rw [List.append_assoc, skip_spaces ws hws, List.cons_append, skip_stop x _ hsp]
  simp only [bind_ok]
  rw [show atEnd (x :: (n ++ c :: l)) = false by simp [atEnd]; omega, ← List.cons_append]
  by_cases h20 : (x :: n).length = 20
  · rw [hexLoop_word (x :: n) [] c l hds (by simp only [List.length_nil]; omega) hc]
    simp only [bind_ok, List.nil_append, List.length_map, Bool.false_eq_true, if_false]
    rw [if_pos (by omega)]
  · rw [hexLoop_long (x :: n) [] _ hds (by simp) (by simp only [List.length_nil]; omega)]
    rfl

example : (∀ x ∈ chars "00000000000000000190", isxdigit x = true) ∧ (chars "00000000000000000190").length ≥ 20 := by decide

/-! ## Numbers (C35) -/

theorem intLoop_num : ∀ (w : List Nat) (i : Nat), (∀ x ∈ w, isdigit x = true) → i * 10 ^ w.length + decNum w ≤ 2147483647 →
    intLoop w i = .ok (some (i * 10 ^ w.length + decNum w)) := by
  intro w
  induction w with
  | nil => intro i _ _; simp [intLoop, decNum]
  | cons x w ih =>
    intro i hw hl
    have hx := hw x (by simp)
    rw [List.length_cons, decNum, Nat.pow_succ] at hl ⊢
    have e2 : i * (10 ^ w.length * 10) + ((x - 48) * 10 ^ w.length + decNum w) =
        (i * 10 + (x - 48)) * 10 ^ w.length + decNum w := by
      rw [Nat.add_mul]; rw [Nat.mul_comm (10 ^ w.length) 10, Nat.mul_assoc]; omega
    rw [e2] at hl ⊢
    have hpos : 0 < 10 ^ w.length := Nat.pow_pos (by decide)
    have hle : i * 10 + (x - 48) ≤ (i * 10 + (x - 48)) * 10 ^ w.length := Nat.le_mul_of_pos_right _ hpos
    rw [intLoop, if_pos hx, decStep, if_pos (by omega), bind_ok]
    exact ih _ (fun y hy => hw y (by simp [hy])) hl

theorem intLoop_ovf : ∀ (w : List Nat) (i : Nat), (∀ x ∈ w, isdigit x = true) → i ≤ 2147483647 →
    i * 10 ^ w.length + decNum w > 2147483647 → intLoop w i = .ovf := by
  intro w
  induction w with
  | nil => intro i _ h1 hl; simp [decNum] at hl; omega
  | cons x w ih =>
    intro i hw h1 hl
    have hx := hw x (by simp)
    rw [List.length_cons, decNum, Nat.pow_succ] at hl
    have e2 : i * (10 ^ w.length * 10) + ((x - 48) * 10 ^ w.length + decNum w) =
        (i * 10 + (x - 48)) * 10 ^ w.length + decNum w := by
      rw [Nat.add_mul]; rw [Nat.mul_comm (10 ^ w.length) 10, Nat.mul_assoc]; omega
    rw [e2] at hl
    rw [intLoop, if_pos hx, decStep]
    split
    · rw [bind_ok]
      exact ih _ (fun y hy => hw y (by simp [hy])) (by omega) hl
    · rfl

/-- C35: a decimal numeral up to 2147483647 parses to its value.  Missing: larger ones (`C35_violated_overflow`). -/
theorem C35_integer_partial (o : Opt) (hne : o.str ≠ []) (hd : ∀ x ∈ o.str, isdigit x = true)
    (hl : decNum o.str ≤ 2147483647) : getInteger o = .ok (some (decNum o.str)) := by
  unfold getInteger
  rw [if_neg hne, intLoop_num _ _ hd (by omega)]
  simp

example : decNum (chars "3270") = 3270 := rfl

/-- C35: anything else is rejected, when the digits before the first other character do not overflow. -/
theorem C35_rejects (o : Opt) (ds : List Nat) (c : Nat) (l : List Nat) (hs : o.str = ds ++ c :: l)
    (hd : ∀ x ∈ ds, isdigit x = true) (hc : isdigit c = false) (hl : decNum ds ≤ 2147483647) :
    getInteger o = .ok none := by
  unfold getInteger
  rw [if_neg (by simp [hs]), hs]
  have key : ∀ (w : List Nat) (i : Nat), (∀ x ∈ w, isdigit x = true) → i * 10 ^ w.length + decNum w ≤ 2147483647 →
      intLoop (w ++ c :: l) i = .ok none := by
    intro w
    induction w with
    | nil => intro i _ _; rw [List.nil_append, intLoop, if_neg (by simp [hc])]
    | cons x w ih =>
      intro i hw hl
      have hx := hw x (by simp)
      rw [List.length_cons, decNum, Nat.pow_succ] at hl
      have e2 : i * (10 ^ w.length * 10) + ((x - 48) * 10 ^ w.length + decNum w) =
          (i * 10 + (x - 48)) * 10 ^ w.length + decNum w := by
        rw [Nat.add_mul]; rw [Nat.mul_comm (10 ^ w.length) 10, Nat.mul_assoc]; omega
      rw [e2] at hl
      have hpos : 0 < 10 ^ w.length := Nat.pow_pos (by decide)
      have hle : i * 10 + (x - 48) ≤ (i * 10 + (x - 48)) * 10 ^ w.length := Nat.le_mul_of_pos_right _ hpos
      rw [List.cons_append, intLoop, if_pos hx, decStep, if_pos (by omega), bind_ok]
      exact ih _ (fun y hy => hw y (by simp [hy])) hl
  exact key ds 0 hd (by omega)

example : getInteger { opt0 with str := chars "32x0" } = .ok none := rfl

/-- C35: an empty value is rejected. -/
theorem C35_rejects_empty (o : Opt) (h : o.str = []) : getInteger o = .ok none := by rw [getInteger, if_pos h]

/-- C35 fails for every numeral above 2147483647: the sum overflows. -/
theorem C35_violated_overflow (o : Opt) (hd : ∀ x ∈ o.str, isdigit x = true) (hl : decNum o.str > 2147483647) :
    getInteger o = .ovf := by
  unfold getInteger
  rw [if_neg (by intro q; rw [q] at hl; simp [decNum] at hl), intLoop_ovf _ _ hd (by omega) (by omega)]

example : decNum (chars "4294967296") > 2147483647 := by decide

/-! ## Options (C36) -/

/-- The names and values that successive calls of get_option report, until it reports the end. -/
inductive Parses : Opt → List Nat → List (List Nat × Val) → Prop
  | nil (o l o' l') : getOption o l = .ok (false, o', l') → Parses o l []
  | cons (o l n v l' r) : getOption o l = .ok (true, meant o n v, l') → Parses (meant o n v) l' r → Parses o l ((n, v) :: r)

/-- C36: a line of options, each preceded by blanks, is parsed into exactly these options in order; a quoted value
keeps every character.  Missing: quotes in quoted values (`C36_violated_doubled_quote`). -/
theorem C36_options_partial : ∀ (l : List (List Nat × List Nat × Val)) (o : Opt) (e : List Nat),
    (∀ p ∈ l, p.1 ≠ [] ∧ (∀ x ∈ p.1, isspace x = true) ∧ OkOpt p.2.1 p.2.2) → IsEnd e →
    Parses o (lineOf l ++ e) (l.map (·.2)) := by
  intro l
  induction l with
  | nil =>
    intro o e _ he
    obtain ⟨l', q⟩ := getOption_end o e he
    exact .nil _ _ _ _ q
  | cons p l ih =>
    intro o e h he
    obtain ⟨ws, n, v⟩ := p
    obtain ⟨h1, h2, h3⟩ := h (ws, n, v) (by simp)
    obtain ⟨c, r, hcr, hc⟩ := lineOf_head l e he (fun p hp => ⟨(h p (by simp [hp])).1, (h p (by simp [hp])).2.1⟩)
    have := getOption_one o ws n v c r h2 h3 hc
    rw [← hcr] at this
    refine .cons _ _ n v (lineOf l ++ e) _ ?_ (ih _ e (fun p hp => h p (by simp [hp])) he)
    rw [← this]
    simp [lineOf]

example : lineOf [(chars " ", chars "file", .quoted (chars "my tape.tap")), (chars "  ", chars "ring", .none),
    (chars " ", chars "format", .bare (chars "e11"))] ++ chars " # tape" ++ [0] =
    chars " file=\"my tape.tap\"  ring format=e11 # tape" ++ [0] := by decide
example : OkOpt (chars "file") (.quoted (chars "my tape.tap")) :=
  ⟨by decide, by decide, by decide, by simp, by simp; decide⟩
example : meant opt0 (chars "file") (.quoted (chars "my tape.tap")) =
    { opt0 with opt := chars "FILE", str := chars "my tape.tap", flags := 1 } := by decide

/-- C36 fails for a doubled quote: it disappears. -/
theorem C36_violated_doubled_quote :
    getString opt0 (chars "\"a\"\"b\"" ++ [0]) = .ok (true, { opt0 with str := chars "ab" }, [0]) := by decide

/-- C36 fails for every doubled quote in a value. -/
theorem C36_violated_every_doubled_quote (u v str : List Nat) (len c : Nat) (l : List Nat) (hu : 34 ∉ u) (hv : 34 ∉ v)
    (hl : len + u.length + v.length + 1 < 1024) (hc : isspace c = true ∨ c = 0) :
    quoted (u ++ 34 :: 34 :: (v ++ 34 :: c :: l)) str len = .ok (str ++ u ++ v, c :: l) := by
  induction u generalizing str len with
  | nil =>
    rw [List.nil_append, quoted.eq_def]
    simp only
    rw [if_neg (by simp at hl; omega)]
    simp only [if_true]
    rw [quoted_word v str (len + 1) c l hv (by simp at hl; omega) hc]
    simp
  | cons x u ih =>
    simp only [List.mem_cons, not_or] at hu
    simp only [List.length_cons] at hl
    rw [List.cons_append, quoted.eq_def]
    simp only
    rw [if_neg (by omega), if_neg (fun q => hu.1 q.symm), ih _ _ hu.2 (by omega)]
    simp

/-! ## Bounds (C37) -/

/-- Calls of the parser. -/
inductive Call where
  | model
  | addr
  | string
  | option
deriving Repr, DecidableEq

def call (o : Opt) (l : List Nat) : Call → Res (Bool × Opt × List Nat)
  | .model => getModel o l
  | .addr => getAddr o l
  | .string => getString o l
  | .option => getOption o l

def calls : List Call → Opt → List Nat → Res (Opt × List Nat)
  | [], o, l => .ok (o, l)
  | c :: cs, o, l => do
    let (_, o, l) ← call o l c
    calls cs o l

def Safe {α : Type} (x : Res α) (P : α → Prop) : Prop :=
  match x with
  | .ok a => P a
  | .oob => False
  | _ => True

theorem Safe.bind {α β : Type} {x : Res α} {g : α → Res β} {P : α → Prop} {Q : β → Prop} (h : Safe x P)
    (hg : ∀ a, P a → Safe (g a) Q) : Safe (x >>= g) Q := by
  cases x with
  | ok a => exact hg a h
  | oob => exact h.elim
  | badFree => trivial
  | ovf => trivial
  | hang => trivial

/-- The remaining line: a tail of the line `s`, the terminating 0, and the rest `j` of the array. -/
def At (s j l : List Nat) : Prop := ∃ t, t <:+ s ∧ l = t ++ 0 :: j

theorem At.tail {s j l c} (h : At s j (c :: l)) (hc : c ≠ 0) : At s j l := by
  obtain ⟨t, h1, h2⟩ := h
  cases t with
  | nil => exact absurd (List.cons.inj h2).1 hc
  | cons x t =>
    obtain ⟨rfl, rfl⟩ := List.cons.inj h2
    exact ⟨t, List.IsSuffix.trans (List.suffix_cons c t) h1, rfl⟩

theorem At.ne {s j} (h : At s j []) : False := by
  obtain ⟨t, _, h2⟩ := h
  cases t <;> cases h2

theorem skip_safe {s j} : ∀ l, At s j l → Safe (skip l) (At s j) := by
  intro l
  induction l with
  | nil => intro h; exact h.ne.elim
  | cons c l ih =>
    intro h
    rw [skip]
    split
    · rename_i hc
      exact ih (h.tail (by rintro rfl; exact absurd hc (by decide)))
    · exact h

/-- Words read so far are shorter than 20. -/
def Word (s : List Nat) (n : Nat) (l j : List Nat) : Prop :=
  ∃ a w t, s = a ++ w ++ t ∧ (∀ c ∈ w, wordChar c) ∧ n ≤ w.length ∧ l = t ++ 0 :: j

theorem Word.at {s n l j} (h : Word s n l j) : At s j l := by
  obtain ⟨a, w, t, h1, _, _, h4⟩ := h
  exact ⟨t, ⟨a ++ w, h1.symm⟩, h4⟩

theorem Word.short {s n l j} (h : Word s n l j) (hs : Short s) : n < 20 := by
  obtain ⟨a, w, t, h1, h2, h3, _⟩ := h
  have := hs a w t h1 h2
  omega

theorem Word.zero {s l j} (h : At s j l) : Word s 0 l j := by
  obtain ⟨t, ⟨a, h1⟩, h2⟩ := h
  exact ⟨a, [], t, by simpa using h1.symm, by simp, Nat.zero_le _, h2⟩

theorem Word.le {s n m l j} (h : Word s n l j) (hm : m ≤ n) : Word s m l j := by
  obtain ⟨a, w, t, h1, h2, h3, h4⟩ := h
  exact ⟨a, w, t, h1, h2, by omega, h4⟩

theorem Word.step {s n l j c} (h : Word s n (c :: l) j) (hc : wordChar c) : Word s (n + 1) l j := by
  obtain ⟨a, w, t, h1, h2, h3, h4⟩ := h
  cases t with
  | nil =>
    obtain ⟨rfl, _⟩ := List.cons.inj h4
    unfold wordChar at hc
    exact absurd hc (by decide)
  | cons x t =>
    obtain ⟨rfl, rfl⟩ := List.cons.inj h4
    refine ⟨a, w ++ [c], t, by simp [h1], ?_, by simp; omega, rfl⟩
    intro y hy
    rcases List.mem_append.mp hy with q | q
    · exact h2 y q
    · rw [List.mem_singleton.mp q]; exact hc

theorem modelLoop_safe {s j} : ∀ (l : List Nat) (m : MS), Word s m.len l j → (m.cur = 0 ∨ m.cur = 1 ∨ m.cur = 2) →
    Safe (modelLoop l m) (fun r => Word s r.1.len r.2 j) := by
  intro l
  induction l with
  | nil => intro m h _; exact h.at.ne.elim
  | cons c l ih =>
    intro m h hm
    rw [modelLoop]
    split
    · rename_i hc
      have hw := h.step hc.2
      split
      · exact ih _ (Word.zero hw.at) (Or.inr (Or.inl rfl))
      split
      · exact ih _ (Word.zero hw.at) (Or.inr (Or.inr rfl))
      split
      · refine ih _ ?_ ?_
        · have : (m.push (toupper c)).len = m.len + 1 := by
            rcases hm with q | q | q <;> simp [MS.push, MS.len, q]
          rw [this]; exact hw
        · rcases hm with q | q | q <;> simp [MS.push, q]
      · trivial
    · exact h

theorem decPrefix_safe : ∀ (l : List Nat) (i : Nat), Safe (decPrefix l i) (fun _ => True) := by
  intro l
  induction l with
  | nil => intro i; trivial
  | cons c l ih =>
    intro i
    rw [decPrefix]
    split
    · unfold decStep
      split
      · rw [bind_ok]; exact ih _
      · trivial
    · trivial

theorem getModel_safe {s j l} (hs : Short s) (o : Opt) (h : At s j l) :
    Safe (getModel o l) (fun r => At s j r.2.2) := by
  unfold getModel
  refine (skip_safe l h).bind ?_
  intro l1 h1
  split
  · exact h1
  refine (modelLoop_safe l1 _ (Word.zero h1) (Or.inl rfl)).bind ?_
  rintro ⟨m, l2⟩ h2
  have h20 := h2.short hs
  simp only at h20 ⊢
  rw [if_neg (by omega)]
  have hd : ∀ (b : Bool) (t : List Nat) (x : Nat), Safe (if b = true then decPrefix t 0 else .ok x) (fun _ => True) := by
    intro b t x
    split
    · exact decPrefix_safe _ _
    · trivial
  refine (hd _ _ _).bind ?_
  intro d _
  refine (hd _ _ _).bind ?_
  intro e _
  exact h2.at

theorem hexLoop_safe {s j} (hs : Short s) : ∀ (l acc : List Nat), Word s acc.length l j →
    Safe (hexLoop l acc) (fun r => Word s r.1.length r.2 j) := by
  intro l
  induction l with
  | nil => intro acc h; exact h.at.ne.elim
  | cons c l ih =>
    intro acc h
    rw [hexLoop]
    split
    · rename_i hc
      have h20 := h.short hs
      rw [if_pos h20]
      refine ih _ ?_
      rw [List.length_append]
      refine h.step ?_
      left
      rw [xdigit_iff] at hc
      rw [alnum_iff]; omega
    · exact h

theorem getAddr_safe {s j l} (hs : Short s) (o : Opt) (h : At s j l) : Safe (getAddr o l) (fun r => At s j r.2.2) := by
  unfold getAddr
  refine (skip_safe l h).bind ?_
  intro l1 h1
  split
  · exact h1
  refine (hexLoop_safe hs l1 [] (Word.zero h1)).bind ?_
  rintro ⟨t, l2⟩ h2
  have h20 := h2.short hs
  simp only at h20 ⊢
  rw [if_neg (by omega)]
  split
  · exact h2.at
  · exact h2.at

theorem bare_safe {s j} (hl : s.length < 1024) : ∀ (l str : List Nat), (∃ a t, s = a ++ t ∧ str.length ≤ a.length ∧ l = t ++ 0 :: j) →
    Safe (bare l str) (fun r => At s j r.2) := by
  intro l
  induction l with
  | nil => rintro str ⟨a, t, _, _, h⟩; cases t <;> cases h
  | cons c l ih =>
    rintro str ⟨a, t, h1, h2, h3⟩
    have : a.length ≤ s.length := by rw [h1]; simp
    rw [bare, if_neg (by omega)]
    cases t with
    | nil =>
      obtain ⟨rfl, rfl⟩ := List.cons.inj h3
      rw [if_pos (by simp)]
      exact ⟨[], List.nil_suffix, rfl⟩
    | cons x t =>
      obtain ⟨rfl, rfl⟩ := List.cons.inj h3
      split
      · exact ⟨c :: t, ⟨a, h1.symm⟩, rfl⟩
      · exact ih _ ⟨a ++ [c], t, by simp [h1], by simp; omega, rfl⟩

theorem getString_safe {s j l} (hl : s.length < 1024) (hq : 34 ∉ s) (o : Opt) (h : At s j l) :
    Safe (getString o l) (fun r => At s j r.2.2) := by
  unfold getString
  refine (skip_safe l h).bind ?_
  intro l1 h1
  split
  · exact h1
  split
  · rename_i m _
    exfalso
    obtain ⟨t, ⟨a, h2⟩, h3⟩ := h1
    cases t with
    | nil => cases h3
    | cons x t =>
      obtain ⟨rfl, _⟩ := List.cons.inj h3
      exact hq (by rw [← h2]; simp)
  · obtain ⟨t, ⟨a, h2⟩, h3⟩ := h1
    refine (bare_safe hl l1 [] ⟨a, t, h2.symm, by simp, h3⟩).bind ?_
    rintro ⟨u, l2⟩ h4
    exact h4

theorem nameLoop_safe {s j} : ∀ (l acc : List Nat), Word s acc.length l j →
    Safe (nameLoop l acc) (fun r => Word s r.1.length r.2 j) := by
  intro l
  induction l with
  | nil => intro acc h; exact h.at.ne.elim
  | cons c l ih =>
    intro acc h
    rw [nameLoop]
    split
    · rename_i hc
      refine ih _ ?_
      rw [List.length_append]
      refine h.step ?_
      rcases hc.2 with q | q
      · exact Or.inl q
      · exact Or.inr (Or.inl q)
    · exact h

theorem getOption_safe {s j l} (hs : Short s) (hl : s.length < 1024) (hq : 34 ∉ s) (o : Opt) (h : At s j l) :
    Safe (getOption o l) (fun r => At s j r.2.2) := by
  unfold getOption
  refine (skip_safe l h).bind ?_
  intro l1 h1
  split
  · exact h1
  refine (nameLoop_safe l1 [] (Word.zero h1)).bind ?_
  rintro ⟨n, l2⟩ h2
  have h20 := h2.short hs
  simp only at h20 ⊢
  rw [if_neg (by omega)]
  cases l2 with
  | nil => exact h2.at.ne.elim
  | cons c m =>
    simp only
    split
    · rename_i hc
      refine (getString_safe hl hq _ (h2.at.tail (by simp [hc]))).bind ?_
      rintro ⟨r, o2, l3⟩ h3
      simp only
      split <;> exact h3
    · exact h2.at

/-- C37: on a line shorter than 1024 characters without quotes, with no 20 letters, digits, dashes or slashes in a row, no
sequence of parser calls reads or writes outside its arrays.  Missing: longer words and quotes
(`C34_violated_long`, `C37_violated_long_name`, `C37_violated_open_quote`). -/
theorem C37_in_bounds_partial (s j : List Nat) (hl : s.length < 1024) (hs : Short s) (hq : 34 ∉ s) (cs : List Call) (o : Opt) :
    calls cs o (s ++ 0 :: j) ≠ .oob := by
  have key : ∀ (cs : List Call) (o : Opt) (l : List Nat), At s j l → Safe (calls cs o l) (fun _ => True) := by
    intro cs
    induction cs with
    | nil => intro o l _; trivial
    | cons c cs ih =>
      intro o l h
      unfold calls
      refine Safe.bind (P := fun r => At s j r.2.2) ?_ (fun r h => ih _ _ h)
      cases c with
      | model => exact getModel_safe hs o h
      | addr => exact getAddr_safe hs o h
      | string => exact getString_safe hl hq o h
      | option => exact getOption_safe hs hl hq o h
  have := key cs o (s ++ 0 :: j) ⟨s, List.suffix_refl s, rfl⟩
  intro q
  rw [q] at this
  exact this

theorem short_of_length (s : List Nat) (h : s.length < 20) : Short s := by
  intro a w b e _
  have := congrArg List.length e
  simp at this
  omega

/-- The hypothesis holds for ordinary lines: words separated by blanks. -/
theorem short_append (a b : List Nat) (c : Nat) (hc : ¬ wordChar c) (ha : Short a) (hb : Short b) : Short (a ++ c :: b) := by
  intro u w v e hw
  by_cases h : c ∈ w
  · exact absurd (hw c h) hc
  rw [List.append_assoc, List.append_eq_append_iff] at e
  rcases e with ⟨d, rfl, e⟩ | ⟨d, rfl, e⟩
  · cases d with
    | nil =>
      cases w with
      | nil => simp
      | cons x w =>
        obtain ⟨rfl, _⟩ := List.cons.inj e
        exact absurd (by simp) h
    | cons x d =>
      obtain ⟨rfl, rfl⟩ := List.cons.inj e
      exact hb d w v (by simp) hw
  · rw [List.append_eq_append_iff] at e
    rcases e with ⟨d', rfl, e⟩ | ⟨d', rfl, e⟩
    · exact ha u w d' (by simp) hw
    · cases d' with
      | nil => rw [List.append_nil]; exact ha u d [] (by simp) (fun c hc => hw c (by simp [hc]))
      | cons x d' =>
        obtain ⟨rfl, _⟩ := List.cons.inj e
        exact absurd (by simp) h

example : Short (chars "2415 0c0 7track") := short_append (chars "2415") (chars "0c0 7track") 32 (by unfold wordChar; decide)
  (short_of_length _ (by decide)) (short_of_length _ (by decide))

/-- C37 fails for every option name of 20 letters or more. -/
theorem C37_violated_long_name (o : Opt) (ws w l : List Nat) (hws : ∀ x ∈ ws, isspace x = true)
    (hw : ∀ x ∈ w, isalnum x = true ∨ x = 45) (hl : w.length ≥ 20) (hne : l ≠ []) : getOption o (ws ++ w ++ l) = .oob := by
  obtain ⟨x, n, rfl⟩ : ∃ x n, w = x :: n := by
    cases w with | nil => simp at hl | cons x n => exact ⟨x, n, rfl⟩
  have hx := word_stop x (hw x (by simp))
  have key : ∀ (w acc l : List Nat), l ≠ [] → (∀ x ∈ w, isalnum x = true ∨ x = 45) → acc.length ≤ 20 → acc.length + w.length ≥ 20 →
      ∃ m l', nameLoop (w ++ l) acc = .ok (m, l') ∧ m.length ≥ 20 := by
    intro w
    induction w with
    | nil =>
      intro acc l hl _ h1 h2
      obtain ⟨c, l, rfl⟩ : ∃ c l', l = c :: l' := by
        cases l with | nil => exact absurd rfl hl | cons x n => exact ⟨x, n, rfl⟩
      refine ⟨acc, c :: l, ?_, by simpa using h2⟩
      rw [List.nil_append, nameLoop, if_neg (by simp at h2; omega)]
    | cons y w ih =>
      intro acc l hl hw h1 h2
      simp only [List.length_cons] at h2
      rw [List.cons_append, nameLoop]
      split
      · exact ih _ l hl (fun y hy => hw y (by simp [hy])) (by simp; omega) (by simp; omega)
      · rename_i hc
        refine ⟨acc, _, rfl, ?_⟩
        have := hw y (by simp)
        exact Decidable.byContradiction fun hlt => hc ⟨by omega, this⟩
  obtain ⟨m, l', e, hm⟩ := key (x :: n) [] l hne hw (by simp) (by simp only [List.length_nil]; omega)
  unfold getOption
  rw [List.append_assoc, skip_spaces ws hws, List.cons_append, skip_stop x _ hx.1]
  simp only [bind_ok]
  rw [show atEnd (x :: (n ++ l)) = false by simp [atEnd, hx], ← List.cons_append, e]
  simp only [bind_ok, Bool.false_eq_true, if_false]
  rw [if_pos hm]

/-- C37 fails for every quote that is not closed: the copy runs past the end of the line. -/
theorem C37_violated_open_quote (o : Opt) (w : List Nat) (hw : 34 ∉ w) (hl : w.length < 1023) :
    getString o (34 :: (w ++ [0])) = .oob := by
  have key : ∀ (w str : List Nat) (len : Nat), 34 ∉ w → len + w.length < 1024 → quoted w str len = .oob := by
    intro w
    induction w with
    | nil => intro str len _ h; rw [quoted.eq_def]; simp only; rw [if_neg (by simp at h; omega)]
    | cons x w ih =>
      intro str len hw hl
      simp only [List.mem_cons, not_or] at hw
      simp only [List.length_cons] at hl
      rw [quoted.eq_def]
      simp only
      rw [if_neg (by omega), if_neg (fun q => hw.1 q.symm), ih _ _ hw.2 (by omega)]
  unfold getString
  rw [skip_stop 34 _ (by decide)]
  simp only [bind_ok, atEnd]
  rw [key (w ++ [0]) [] 0 (by simpa using hw) (by simp; omega)]
  rfl

/-- C37 fails for a second dash: the error exit frees the caller's record, which lives on the stack. -/
theorem C37_violated_second_dash : getModel opt0 (chars "2030-1-2" ++ [0]) = .badFree := by decide

/-! ## Termination (C38) -/

theorem skip_len : ∀ (l l' : List Nat), skip l = .ok l' → l'.length ≤ l.length := by
  intro l
  induction l with
  | nil => intro l' h; cases h
  | cons c l ih =>
    intro l' h
    rw [skip] at h
    split at h
    · have := ih l' h; simp; omega
    · obtain rfl := Res.ok.inj h; exact Nat.le_refl _

theorem bind_eq_ok {α β : Type} {x : Res α} {f : α → Res β} {b : β} (h : (x >>= f) = .ok b) :
    ∃ a, x = .ok a ∧ f a = .ok b := by
  cases x with
  | ok a => exact ⟨a, rfl, h⟩
  | oob => cases h
  | badFree => cases h
  | ovf => cases h
  | hang => cases h

theorem nameLoop_len : ∀ (l acc : List Nat) (n l' : List Nat), nameLoop l acc = .ok (n, l') →
    n.length + l'.length = acc.length + l.length := by
  intro l
  induction l with
  | nil => intro acc n l' h; cases h
  | cons c l ih =>
    intro acc n l' h
    rw [nameLoop] at h
    split at h
    · have := ih _ n l' h; simp at this ⊢; omega
    · obtain ⟨rfl, rfl⟩ := Prod.mk.inj (Res.ok.inj h); simp

theorem quoted_len : ∀ (k : Nat) (l str : List Nat) (len : Nat) (u l' : List Nat), l.length ≤ k →
    quoted l str len = .ok (u, l') → l'.length ≤ l.length := by
  intro k
  induction k with
  | zero =>
    intro l str len u l' hk h
    have : l = [] := List.length_eq_zero_iff.mp (by omega)
    subst this
    rw [quoted.eq_def] at h
    simp only at h
    split at h
    · split at h
      · obtain ⟨_, rfl⟩ := Prod.mk.inj (Res.ok.inj h); simp
      · cases h
    · cases h
  | succ k ih =>
    intro l str len u l' hk h
    rw [quoted.eq_def] at h
    simp only at h
    split at h
    · split at h
      · obtain ⟨_, rfl⟩ := Prod.mk.inj (Res.ok.inj h); simp
      · cases h
    · cases l with
      | nil => cases h
      | cons c l =>
        simp only [List.length_cons] at hk
        simp only at h
        split at h
        · cases l with
          | nil => cases h
          | cons d m =>
            simp only [List.length_cons] at hk
            simp only at h
            split at h
            · have := ih m _ _ u l' (by omega) h; simp; omega
            · split at h
              · obtain ⟨_, rfl⟩ := Prod.mk.inj (Res.ok.inj h); simp
              · have := ih (d :: m) _ _ u l' (by simp; omega) h; simp at this ⊢; omega
        · have := ih l _ _ u l' (by omega) h; simp; omega

theorem bare_len : ∀ (l str u l' : List Nat), bare l str = .ok (u, l') → l'.length ≤ l.length := by
  intro l
  induction l with
  | nil => intro str u l' h; rw [bare.eq_def] at h; simp only at h; split at h <;> cases h
  | cons c l ih =>
    intro str u l' h
    rw [bare] at h
    split at h
    · cases h
    split at h
    · obtain ⟨_, rfl⟩ := Prod.mk.inj (Res.ok.inj h); simp
    · have := ih _ u l' h; simp; omega

theorem getString_len (o : Opt) (l : List Nat) (r : Bool) (o' : Opt) (l' : List Nat) (h : getString o l = .ok (r, o', l')) :
    l'.length ≤ l.length := by
  unfold getString at h
  obtain ⟨l1, e1, h⟩ := bind_eq_ok h
  have h1 := skip_len l l1 e1
  split at h
  · obtain ⟨_, h⟩ := Prod.mk.inj (Res.ok.inj h)
    obtain ⟨_, rfl⟩ := Prod.mk.inj h
    exact h1
  split at h
  · obtain ⟨⟨u, l2⟩, e2, h⟩ := bind_eq_ok h
    obtain ⟨_, h⟩ := Prod.mk.inj (Res.ok.inj h)
    obtain ⟨_, rfl⟩ := Prod.mk.inj h
    have := quoted_len _ _ _ _ _ _ (Nat.le_refl _) e2
    simp at h1
    omega
  · obtain ⟨⟨u, l2⟩, e2, h⟩ := bind_eq_ok h
    obtain ⟨_, h⟩ := Prod.mk.inj (Res.ok.inj h)
    obtain ⟨_, rfl⟩ := Prod.mk.inj h
    have := bare_len _ _ _ _ e2
    omega

/-- get_option moves on, or reports an option without name and value. -/
theorem getOption_progress (o : Opt) (l : List Nat) (o' : Opt) (l' : List Nat) (h : getOption o l = .ok (true, o', l')) :
    l'.length < l.length ∨ (o'.opt = [] ∧ o'.flags = 0) := by
  unfold getOption at h
  obtain ⟨l1, e1, h⟩ := bind_eq_ok h
  have h1 := skip_len l l1 e1
  split at h
  · obtain ⟨q, _⟩ := Prod.mk.inj (Res.ok.inj h); cases q
  obtain ⟨⟨n, l2⟩, e2, h⟩ := bind_eq_ok h
  have h2 := nameLoop_len _ _ _ _ e2
  simp only [List.length_nil] at h2
  simp only at h
  split at h
  · cases h
  cases l2 with
  | nil => cases h
  | cons c m =>
    simp only [List.length_cons] at h2
    simp only at h
    split at h
    · obtain ⟨⟨r, o2, l3⟩, e3, h⟩ := bind_eq_ok h
      have h3 := getString_len _ _ _ _ _ e3
      simp only at h
      split at h
      · obtain ⟨_, h⟩ := Prod.mk.inj (Res.ok.inj h)
        obtain ⟨_, rfl⟩ := Prod.mk.inj h
        left; omega
      · obtain ⟨q, _⟩ := Prod.mk.inj (Res.ok.inj h); cases q
    · obtain ⟨_, h⟩ := Prod.mk.inj (Res.ok.inj h)
      obtain ⟨rfl, rfl⟩ := Prod.mk.inj h
      cases n with
      | nil => right; exact ⟨rfl, rfl⟩
      | cons x n => left; simp at h2 ⊢; omega

theorem skip_no_hang : ∀ l, skip l ≠ .hang := by
  intro l
  induction l with
  | nil => simp [skip]
  | cons c l ih => rw [skip]; split; exact ih; simp

theorem quoted_no_hang : ∀ (k : Nat) (l str : List Nat) (len : Nat), l.length ≤ k → quoted l str len ≠ .hang := by
  intro k
  induction k with
  | zero =>
    intro l str len hk
    have : l = [] := List.length_eq_zero_iff.mp (by omega)
    subst this
    rw [quoted.eq_def]; simp only
    split
    · split <;> simp
    · simp
  | succ k ih =>
    intro l str len hk
    rw [quoted.eq_def]; simp only
    split
    · split <;> simp
    · cases l with
      | nil => simp
      | cons c l =>
        simp only [List.length_cons] at hk
        simp only
        split
        · cases l with
          | nil => simp
          | cons d m =>
            simp only [List.length_cons] at hk
            simp only
            split
            · exact ih m _ _ (by omega)
            split
            · simp
            · exact ih _ _ _ (by simp; omega)
        · exact ih l _ _ (by omega)

theorem bare_no_hang : ∀ (l str : List Nat), bare l str ≠ .hang := by
  intro l
  induction l with
  | nil => intro str; rw [bare.eq_def]; simp only; split <;> simp
  | cons c l ih =>
    intro str
    rw [bare]
    split
    · simp
    split
    · simp
    · exact ih _

theorem nameLoop_no_hang : ∀ (l acc : List Nat), nameLoop l acc ≠ .hang := by
  intro l
  induction l with
  | nil => intro acc; simp [nameLoop]
  | cons c l ih => intro acc; rw [nameLoop]; split; exact ih _; simp

theorem bind_no_hang {α β : Type} {x : Res α} {f : α → Res β} (h1 : x ≠ .hang) (h2 : ∀ a, x = .ok a → f a ≠ .hang) :
    (x >>= f) ≠ .hang := by
  cases x with
  | ok a => exact h2 a rfl
  | oob => simp
  | badFree => simp
  | ovf => simp
  | hang => exact absurd rfl h1

theorem getOption_no_hang (o : Opt) (l : List Nat) : getOption o l ≠ .hang := by
  unfold getOption
  refine bind_no_hang (skip_no_hang l) (fun l1 _ => ?_)
  split
  · simp
  refine bind_no_hang (nameLoop_no_hang _ _) ?_
  rintro ⟨n, l2⟩ _
  simp only
  split
  · simp
  cases l2 with
  | nil => simp
  | cons c m =>
    simp only
    split
    · refine bind_no_hang ?_ ?_
      · unfold getString
        refine bind_no_hang (skip_no_hang m) (fun l1 _ => ?_)
        split
        · simp
        split
        · refine bind_no_hang (quoted_no_hang _ _ _ _ (Nat.le_refl _)) ?_
          rintro ⟨u, v⟩ _; simp
        · refine bind_no_hang (bare_no_hang _ _) ?_
          rintro ⟨u, v⟩ _; simp
      · rintro ⟨r, o2, l3⟩ _
        simp only
        split <;> simp
    · simp

/-- C38: parsing the options of any line ends, for every kind of line that rejects an option without a name.
Missing: log level lines (`C38_violated_log_level`). -/
theorem C38_options_end_partial {σ : Type} (f : Opt → σ → Option σ) (hf : ∀ o s, o.opt = [] → o.flags = 0 → f o s = none)
    (o : Opt) (l : List Nat) (s : σ) : options f l.length o l s ≠ .hang := by
  have key : ∀ (n : Nat) (o : Opt) (l : List Nat) (s : σ), l.length ≤ n → options f n o l s ≠ .hang := by
    intro n
    induction n with
    | zero =>
      intro o l s hl
      have : l = [] := List.length_eq_zero_iff.mp (by omega)
      subst this
      rw [options]
      simp [getOption, skip]
    | succ n ih =>
      intro o l s hl
      rw [options]
      refine bind_no_hang (getOption_no_hang o l) ?_
      rintro ⟨r, o1, l1⟩ e1
      simp only
      split
      · rename_i hr
        subst hr
        cases hfo : f o1 s with
        | none => simp
        | some s1 =>
          simp only
          rcases getOption_progress o l o1 l1 e1 with q | q
          · exact ih o1 l1 s1 (by omega)
          · rw [hf o1 s q.1 q.2] at hfo; cases hfo
      · simp
  exact key _ o l s (Nat.le_refl _)

/-- The body for a 2030 line, model2030.c 61-70. -/
def body2030 (o : Opt) (_ : Nat) : Option Nat :=
  if o.opt = chars "PORT" then
    match getInteger o with
    | .ok (some v) => some (v % 65536)
    | _ => none
  else none

example : ∀ o s, o.opt = [] → o.flags = 0 → body2030 o s = none := by
  intro o s h _
  rw [body2030, if_neg (by rw [h]; decide)]

/-- C38 fails for log level lines: options separated by commas, as the documentation allows, never end. -/
theorem C38_violated_log_level (fuel : Nat) (o : Opt) (lv : Nat) :
    logLevel fuel o (chars " INFO,WARN" ++ [0]) lv = .hang := by
  have step : ∀ o, getOption o (chars ",WARN" ++ [0]) =
      .ok (true, { o with opt := [], str := [], flags := 0 }, chars ",WARN" ++ [0]) := fun o => rfl
  have key : ∀ (n : Nat) (o : Opt) (s : Nat × Bool), options logBody n o (chars ",WARN" ++ [0]) s = .hang := by
    intro n
    induction n with
    | zero =>
      intro o s
      rw [options, step]
      simp only [bind_ok, if_true]
      rfl
    | succ n ih =>
      intro o s
      rw [options, step]
      simp only [bind_ok, if_true]
      exact ih _ _
  have first : getOption o (chars " INFO,WARN" ++ [0]) =
      .ok (true, { o with opt := chars "INFO", str := [], flags := 0 }, chars ",WARN" ++ [0]) := rfl
  unfold logLevel
  rw [options, first]
  simp only [bind_ok, if_true]
  cases fuel with
  | zero => rfl
  | succ n => exact key n _ _

/-! ## Log levels (C67) -/

theorem options_run {σ : Type} (f : Opt → σ → Option σ) (g : List Nat × Val → σ → σ) : ∀ (ps : List (List Nat × Val)) (o : Opt)
    (l : List Nat) (s : σ), Parses o l ps → (∀ p ∈ ps, ∀ o s, f (meant o p.1 p.2) s = some (g p s)) →
    ∃ l', options f ps.length o l s = .ok (some (ps.foldl (fun s p => g p s) s), l') := by
  intro ps
  induction ps with
  | nil =>
    intro o l s h _
    cases h with
    | nil _ _ o' l' h => exact ⟨l', by rw [options, h]; rfl⟩
  | cons p ps ih =>
    intro o l s h hf
    cases h with
    | cons _ _ n v l1 _ e h =>
      obtain ⟨l', q⟩ := ih _ _ (g (n, v) s) h (fun p hp => hf p (by simp [hp]))
      refine ⟨l', ?_⟩
      rw [options, e]
      simp only [bind_ok, if_true]
      rw [hf (n, v) (by simp) o s]
      exact q

/-- C67: a log level line of known names, in any case, turns on exactly their bits. -/
theorem C67_log_level (l : List (List Nat × (List Nat × Nat))) (o : Opt) (e : List Nat) (lv : Nat)
    (h : ∀ p ∈ l, p.1 ≠ [] ∧ (∀ x ∈ p.1, isspace x = true) ∧ p.2 ∈ logTypes) (he : IsEnd e) :
    ∃ l', logLevel l.length o (lineOf (l.map fun p => (p.1, p.2.1, .none)) ++ e) lv =
      .ok (some (l.foldl (fun s p => s ||| p.2.2) lv, true), l') := by
  have hT : ∀ t ∈ logTypes, OkOpt t.1 .none ∧ logTypes.find? (fun u => u.1 == t.1.map toupper) = some t := by
    intro t ht
    have h1 : ∀ t ∈ logTypes, t.1 ≠ [] ∧ t.1.length < 20 ∧ (∀ c ∈ t.1, isalnum c = true ∨ c = 45) := by decide
    have h2 : ∀ t ∈ logTypes, logTypes.find? (fun u => u.1 == t.1.map toupper) = some t := by decide
    obtain ⟨a, b, c⟩ := h1 t ht
    exact ⟨⟨a, b, c, by simp, by simp⟩, h2 t ht⟩
  have hp := C36_options_partial (l.map fun p => (p.1, p.2.1, .none)) o e (by
    intro p hp
    obtain ⟨q, hq, rfl⟩ := List.mem_map.mp hp
    exact ⟨(h q hq).1, (h q hq).2.1, (hT _ (h q hq).2.2).1⟩) he
  obtain ⟨l', r⟩ := options_run logBody (fun p s => match logTypes.find? (fun u => u.1 == p.1.map toupper) with
      | some t => (s.1 ||| t.2, s.2)
      | none => s) _ o _ (lv, true) hp (by
    intro p hp o s
    obtain ⟨p', hp', rfl⟩ := List.mem_map.mp hp
    obtain ⟨q, hq, rfl⟩ := List.mem_map.mp hp'
    have := (hT _ (h q hq).2.2).2
    simp only [logBody, meant, ne_eq, not_true_eq_false, if_false, this])
  refine ⟨l', ?_⟩
  unfold logLevel
  simp only [List.map_map, List.length_map] at r
  rw [r]
  have fold : ∀ (l : List (List Nat × (List Nat × Nat))) (lv : Nat), (∀ p ∈ l, p.2 ∈ logTypes) →
      List.foldl (fun s p => (match logTypes.find? (fun u => u.1 == p.1.map toupper) with
        | some t => (s.1 ||| t.2, s.2)
        | none => s)) (lv, true) (l.map ((fun x => x.2) ∘ fun p => (p.1, p.2.1, Val.none))) =
      (l.foldl (fun s p => s ||| p.2.2) lv, true) := by
    intro l
    induction l with
    | nil => intro lv _; rfl
    | cons p l ih =>
      intro lv hl
      rw [List.map_cons, List.foldl_cons, List.foldl_cons]
      simp only [Function.comp]
      rw [(hT _ (hl p (by simp))).2]
      exact ih _ (fun p hp => hl p (by simp [hp]))
  rw [fold l lv (fun p hp => (h p hp).2.2)]

/-- C67: different names stand for different levels. -/
theorem C67_levels_distinct : ∀ s ∈ logTypes, ∀ t ∈ logTypes, s.2 ≠ 0 ∧ (s.1 ≠ t.1 → s.2 &&& t.2 = 0) := by decide +kernel

example : (chars "TAPE", 0x1000) ∈ logTypes := by decide

/-! ## Values from a list (C68) -/

/-- C68: a value that is in the list is found at its first place, any other value is refused.  Missing: no value
(`C68_violated_no_value`). -/
theorem C68_index_partial (o : Opt) (list : List (List Nat)) (hne : o.str ≠ []) :
    (∀ i (hi : i < list.length), list[i] = o.str → (∀ j (hj : j < i), list[j]'(by omega) ≠ o.str) → getIndex o list = i) ∧
    (o.str ∉ list → getIndex o list = -1) := by
  constructor
  · intro i hi h1 h2
    have : list.findIdx? (· == o.str) = some i := by
      rw [List.findIdx?_eq_some_iff_getElem]
      exact ⟨hi, by simp [h1], fun j hj => by simpa using h2 j hj⟩
    simp [getIndex, hne, this]
  · intro h
    have : list.findIdx? (· == o.str) = none := by
      rw [List.findIdx?_eq_none_iff]
      intro x hx
      simp only [beq_eq_false_iff_ne]
      rintro rfl
      exact h hx
    simp [getIndex, hne, this]

example : getIndex { opt0 with str := chars "E11" } [chars "TAP", chars "E11", chars "P7B"] = 1 := by decide

/-- C68 fails without a value: the first entry is chosen. -/
theorem C68_violated_no_value (o : Opt) (h : o.str = []) (list : List (List Nat)) : getIndex o list = 0 := by
  rw [getIndex, if_pos h]

/-! ## Device names (C70) -/

theorem modelLoop_word : ∀ (w : List Nat) (s : MS) (l : List Nat), (s.cur = 0 ∨ s.cur = 1 ∨ s.cur = 2) →
    (∀ x ∈ w, isalnum x = true) → s.len + w.length ≤ 20 → modelLoop (w ++ l) s = modelLoop l ((w.map toupper).foldl MS.push s) := by
  intro w
  induction w with
  | nil => intro s l _ _ _; rfl
  | cons x w ih =>
    intro s l hc hw hl
    simp only [List.length_cons] at hl
    have hx := hw x (by simp)
    have h1 : x ≠ 45 ∧ x ≠ 47 := by rw [alnum_iff] at hx; omega
    rw [List.cons_append, modelLoop, if_pos ⟨by omega, Or.inl hx⟩, if_neg (fun q => h1.1 q.1), if_neg (fun q => h1.2 q.1), if_pos hx]
    rw [ih _ l (by rcases hc with q | q | q <;> simp [MS.push, q]) (fun y hy => hw y (by simp [hy]))]
    · rfl
    · have : (s.push (toupper x)).len = s.len + 1 := by rcases hc with q | q | q <;> simp [MS.push, MS.len, q]
      omega

theorem modelLoop_end (s : MS) (c : Nat) (l : List Nat) (hc : ¬ wordChar c) : modelLoop (c :: l) s = .ok (s, c :: l) := by
  rw [modelLoop, if_neg (fun q => hc q.2)]

theorem push0 : ∀ (w : List Nat) (s : MS), s.cur = 0 → w.foldl MS.push s = { s with name := s.name ++ w } := by
  intro w
  induction w with
  | nil => intro s _; simp
  | cons x w ih =>
    intro s h
    rw [List.foldl_cons, ih _ (by simp [MS.push, h])]
    simp [MS.push, h]

theorem push1 : ∀ (w : List Nat) (s : MS), s.cur = 1 → w.foldl MS.push s = { s with t1 := s.t1 ++ w } := by
  intro w
  induction w with
  | nil => intro s _; simp
  | cons x w ih =>
    intro s h
    rw [List.foldl_cons, ih _ (by simp [MS.push, h])]
    simp [MS.push, h]

theorem push2 : ∀ (w : List Nat) (s : MS), s.cur = 2 → w.foldl MS.push s = { s with t2 := s.t2 ++ w } := by
  intro w
  induction w with
  | nil => intro s _; simp
  | cons x w ih =>
    intro s h
    rw [List.foldl_cons, ih _ (by simp [MS.push, h])]
    simp [MS.push, h]

theorem toupper_digit (x : Nat) (h : isdigit x = true) : toupper x = x := by
  rw [digit_iff] at h
  unfold toupper
  rw [if_neg (by omega)]

theorem map_toupper_digits (w : List Nat) (h : ∀ x ∈ w, isdigit x = true) : w.map toupper = w := by
  induction w with
  | nil => rfl
  | cons x w ih => rw [List.map_cons, toupper_digit x (h x (by simp)), ih (fun y hy => h y (by simp [hy]))]

theorem decPrefix_num : ∀ (w : List Nat) (i : Nat), (∀ x ∈ w, isdigit x = true) → i * 10 ^ w.length + decNum w ≤ 2147483647 →
    decPrefix w i = .ok (i * 10 ^ w.length + decNum w) := by
  intro w
  induction w with
  | nil => intro i _ _; simp [decPrefix, decNum]
  | cons x w ih =>
    intro i hw hl
    have hx := hw x (by simp)
    rw [List.length_cons, decNum, Nat.pow_succ] at hl ⊢
    have e2 : i * (10 ^ w.length * 10) + ((x - 48) * 10 ^ w.length + decNum w) =
        (i * 10 + (x - 48)) * 10 ^ w.length + decNum w := by
      rw [Nat.add_mul]; rw [Nat.mul_comm (10 ^ w.length) 10, Nat.mul_assoc]; omega
    rw [e2] at hl ⊢
    have hpos : 0 < 10 ^ w.length := Nat.pow_pos (by decide)
    have hle : i * 10 + (x - 48) ≤ (i * 10 + (x - 48)) * 10 ^ w.length := Nat.le_mul_of_pos_right _ hpos
    rw [decPrefix, if_pos hx, decStep, if_pos (by omega), bind_ok]
    exact ih _ (fun y hy => hw y (by simp [hy])) hl

theorem alpha_toupper (x : Nat) (h : isalpha x = true) : isalpha (toupper x) = true := by
  rw [alpha_iff] at h ⊢
  unfold toupper
  split <;> omega

theorem alpha_of_toupper (x : Nat) (h : isalpha (toupper x) = true) : isalpha x = true := by
  rw [alpha_iff] at h ⊢
  unfold toupper at h
  split at h <;> omega

theorem digit_of_toupper (x : Nat) (h : isdigit (toupper x) = true) : isdigit x = true := by
  rw [digit_iff] at h ⊢
  unfold toupper at h
  split at h <;> omega

theorem splitModel_some (n : List Nat) (m : Nat) (hn : n ≠ []) (hd : ∀ x ∈ n, isdigit x = true) (hm : isalpha m = true) :
    splitModel (n ++ [m]) = some (n, m) := by
  have hmd : isdigit m = false := by
    cases q : isdigit m
    · rfl
    · rw [digit_iff] at q; rw [alpha_iff] at hm; omega
  have key : ∀ n : List Nat, (∀ x ∈ n, isdigit x = true) → (n ++ [m]).dropWhile isdigit = [m] ∧ (n ++ [m]).takeWhile isdigit = n := by
    intro n
    induction n with
    | nil => intro _; simp [hmd]
    | cons x n ih =>
      intro h
      obtain ⟨a, b⟩ := ih (fun y hy => h y (by simp [hy]))
      rw [List.cons_append, List.dropWhile_cons, List.takeWhile_cons, if_pos (h x (by simp)), if_pos (h x (by simp)), a, b]
      exact ⟨rfl, rfl⟩
  cases n with
  | nil => exact absurd rfl hn
  | cons x n =>
    obtain ⟨a, b⟩ := key _ hd
    rw [List.cons_append] at a b ⊢
    simp only [splitModel]
    rw [if_pos (hd x (by simp)), a, b]
    simp only
    rw [if_pos hm]

theorem splitModel_none (u : List Nat) (h : ∀ n m, u = n ++ [m] → n ≠ [] → (∀ x ∈ n, isdigit x = true) → isalpha m = false) :
    splitModel u = none := by
  cases u with
  | nil => rfl
  | cons c u =>
    simp only [splitModel]
    split
    · rename_i hc
      split
      · rename_i m hm
        have e := List.takeWhile_append_dropWhile (p := isdigit) (l := c :: u)
        rw [hm] at e
        have := h _ m e.symm (by rw [List.takeWhile_cons, if_pos hc]; simp) (fun x hx => by
          have := List.all_takeWhile (p := isdigit) (l := c :: u)
          rw [List.all_eq_true] at this
          exact this x hx)
        rw [if_neg (by simp [this])]
      · rfl
    · rfl

theorem modelLoop_text (w : List Nat) (d e : Option (List Nat)) (c : Nat) (l : List Nat) (hw : ∀ x ∈ w, isalnum x = true)
    (hl : w.length < 20) (hd : ∀ v, d = some v → v.length < 20 ∧ (∀ x ∈ v, isdigit x = true))
    (he : ∀ v, e = some v → v.length < 20 ∧ (∀ x ∈ v, isdigit x = true)) (hc : ¬ wordChar c) :
    ∃ k, modelLoop (modelText w d e ++ c :: l) { cur := 0, f1 := false, f2 := false, name := [], t1 := [], t2 := [] } =
      .ok ({ cur := k, f1 := d.isSome, f2 := e.isSome, name := w.map toupper, t1 := d.getD [], t2 := e.getD [] }, c :: l) ∧
      (k = 0 ∨ k = 1 ∨ k = 2) := by
  have dig : ∀ v : List Nat, (∀ x ∈ v, isdigit x = true) → ∀ x ∈ v, isalnum x = true := by
    intro v hv x hx
    have := hv x hx
    rw [digit_iff] at this
    rw [alnum_iff]; omega
  have slash : ∀ (k : Nat) (f1 : Bool) (t1 : List Nat), (k = 0 ∨ k = 1) →
      MS.len { cur := k, f1 := f1, f2 := false, name := w.map toupper, t1 := t1, t2 := [] } < 20 →
      ∃ k', modelLoop ((match e with | none => [] | some e => 47 :: e) ++ c :: l)
        { cur := k, f1 := f1, f2 := false, name := w.map toupper, t1 := t1, t2 := [] } =
      .ok ({ cur := k', f1 := f1, f2 := e.isSome, name := w.map toupper, t1 := t1, t2 := e.getD [] }, c :: l) ∧
      (k' = 0 ∨ k' = 1 ∨ k' = 2) := by
    intro k f1 t1 hk hlen
    cases e with
    | none =>
      refine ⟨k, ?_, by omega⟩
      simp only [List.nil_append]
      rw [modelLoop_end _ c l hc]; rfl
    | some v =>
      obtain ⟨h1, h2⟩ := he v rfl
      refine ⟨2, ?_, by omega⟩
      simp only [List.cons_append]
      rw [modelLoop, if_pos ⟨hlen, Or.inr (Or.inr rfl)⟩, if_neg (by simp), if_pos ⟨rfl, rfl⟩]
      rw [modelLoop_word v _ _ (by simp) (dig v h2) (by simp [MS.len]; omega), modelLoop_end _ c l hc, push2 _ _ rfl,
        map_toupper_digits v h2]
      rfl
  unfold modelText
  rw [List.append_assoc, List.append_assoc, modelLoop_word w _ _ (by simp) hw (by simp [MS.len]; omega), push0 _ _ rfl]
  simp only [List.nil_append]
  cases d with
  | none =>
    simp only [List.nil_append]
    exact slash 0 false [] (by simp) (by simp [MS.len]; omega)
  | some v =>
    obtain ⟨h1, h2⟩ := hd v rfl
    simp only [List.cons_append]
    rw [modelLoop, if_pos ⟨by simp [MS.len]; omega, Or.inr (Or.inl rfl)⟩, if_pos ⟨rfl, rfl⟩]
    rw [modelLoop_word v _ _ (by simp) (dig v h2) (by simp [MS.len]; omega), push1 _ _ rfl, map_toupper_digits v h2]
    exact slash 1 true v (by simp) (by simp [MS.len]; omega)

/-- C70: a device name with optional model letter, dash number and slash number is taken apart as written.  Missing: longer
names and suffixes, and repeated suffixes (`C37_violated_second_dash`). -/
theorem C70_device_name_partial (o : Opt) (ws w : List Nat) (d e : Option (List Nat)) (c : Nat) (l : List Nat)
    (hws : ∀ x ∈ ws, isspace x = true) (hne : w ≠ []) (hw : ∀ x ∈ w, isalnum x = true) (hl : w.length < 20)
    (hd : ∀ v, d = some v → v.length < 20 ∧ (∀ x ∈ v, isdigit x = true) ∧ decNum v ≤ 2147483647)
    (he : ∀ v, e = some v → v.length < 20 ∧ (∀ x ∈ v, isdigit x = true) ∧ decNum v ≤ 2147483647) (hc : ¬ wordChar c) :
    getModel o (ws ++ modelText w d e ++ c :: l) = .ok (true, modelMeant o w d e, c :: l) := by
  obtain ⟨k, hm, hk⟩ := modelLoop_text w d e c l hw hl (fun v hv => ⟨(hd v hv).1, (hd v hv).2.1⟩)
    (fun v hv => ⟨(he v hv).1, (he v hv).2.1⟩) hc
  have hhead : ∃ r, modelText w d e ++ c :: l = w.head hne :: r ∧ isspace (w.head hne) = false ∧
      w.head hne ≠ 35 ∧ w.head hne ≠ 10 ∧ w.head hne ≠ 0 := by
    cases w with
    | nil => exact absurd rfl hne
    | cons x w =>
      have hx := word_stop x (Or.inl (hw x (by simp)))
      exact ⟨_, by simp only [modelText, List.cons_append, List.head_cons]; rfl, hx.1, hx.2.1, hx.2.2.1, hx.2.2.2.1⟩
  obtain ⟨r, hr, h1, h2, h3, h4⟩ := hhead
  unfold getModel
  rw [List.append_assoc, skip_spaces ws hws]
  rw [show skip (modelText w d e ++ c :: l) = .ok (modelText w d e ++ c :: l) by rw [hr, skip_stop _ _ h1]]
  simp only [bind_ok]
  rw [if_neg (by rw [hr]; simp [atEnd, h2, h3, h4]), hm]
  simp only [bind_ok]
  have hlen : ¬ MS.len { cur := k, f1 := d.isSome, f2 := e.isSome, name := w.map toupper, t1 := d.getD [], t2 := e.getD [] } ≥ 20 := by
    have : (d.getD []).length < 20 := by cases d with | none => simp | some v => exact (hd v rfl).1
    have : (e.getD []).length < 20 := by cases e with | none => simp | some v => exact (he v rfl).1
    rcases hk with q | q | q <;> simp [MS.len, q] <;> omega
  rw [if_neg hlen]
  have hdd : ∀ x, (if d.isSome = true then decPrefix (d.getD []) 0 else .ok x) = .ok (d.elim x decNum) := by
    intro x
    cases d with
    | none => rfl
    | some v =>
      obtain ⟨_, a, b⟩ := hd v rfl
      simp only [Option.isSome_some, if_true, Option.getD_some]
      rw [decPrefix_num v 0 a (by omega)]; simp
  have hee : ∀ x, (if e.isSome = true then decPrefix (e.getD []) 0 else .ok x) = .ok (e.elim x decNum) := by
    intro x
    cases e with
    | none => rfl
    | some v =>
      obtain ⟨_, a, b⟩ := he v rfl
      simp only [Option.isSome_some, if_true, Option.getD_some]
      rw [decPrefix_num v 0 a (by omega)]; simp
  by_cases hsp : w.length ≥ 2 ∧ (∀ x ∈ w.dropLast, isdigit x = true) ∧ isalpha (w.getLastD 0) = true
  · obtain ⟨q1, q2, q3⟩ := id hsp
    have e1 : w = w.dropLast ++ [w.getLastD 0] := by
      rw [List.getLastD_eq_getLast?, List.getLast?_eq_some_getLast hne, Option.getD_some, List.dropLast_concat_getLast]
    have : splitModel (w.map toupper) = some (w.dropLast, toupper (w.getLastD 0)) := by
      have : w.map toupper = w.dropLast ++ [toupper (w.getLastD 0)] := by
        conv => lhs; rw [e1]
        rw [List.map_append, map_toupper_digits _ q2]; rfl
      rw [this]
      refine splitModel_some _ _ ?_ q2 (alpha_toupper _ q3)
      intro q
      have := congrArg List.length q
      simp at this
      omega
    simp only [this, hdd, hee, bind_ok, modelMeant]
    rw [if_pos hsp]
  · have : splitModel (w.map toupper) = none := by
      apply splitModel_none
      intro n m hnm hn hdn
      cases q : isalpha m
      · rfl
      · exfalso
        apply hsp
        have e1 : w = w.dropLast ++ [w.getLastD 0] := by
          rw [List.getLastD_eq_getLast?, List.getLast?_eq_some_getLast hne, Option.getD_some, List.dropLast_concat_getLast]
        rw [e1, List.map_append] at hnm
        have hl2 := congrArg List.length hnm
        simp at hl2
        obtain ⟨a, b⟩ := List.append_inj hnm (by simpa using hl2)
        refine ⟨?_, ?_, ?_⟩
        · have : n.length ≠ 0 := by simpa using hn
          omega
        · intro x hx
          apply digit_of_toupper
          apply hdn
          rw [← a]
          exact List.mem_map_of_mem hx
        · apply alpha_of_toupper
          simp only [List.map_cons, List.map_nil, List.cons.injEq, and_true] at b
          rw [b]; exact q
    simp only [this, hdd, hee, bind_ok, modelMeant]
    rw [if_neg hsp]

example : modelMeant opt0 (chars "2030e") none (some (chars "12")) =
    { opt0 with opt := chars "2030", model := 69, slash := 12, flags := 2 } := by decide
example : modelText (chars "2030e") (some (chars "3")) (some (chars "12")) = chars "2030e-3/12" := by decide

/-! ## Lines do not influence each other (C69) -/

/-- C69: the name and the suffix flags are those of the line, whatever the record held before.  Missing: the model letter
and the suffix numbers when the line has none (`C69_violated_stale_model`). -/
theorem C69_name_partial (o o' : Opt) (l : List Nat) :
    (∀ r a m, getModel o l = .ok (r, a, m) → ∃ a', getModel o' l = .ok (r, a', m) ∧
      (r = true → a'.opt = a.opt ∧ a'.flags = a.flags)) := by
  intro r a m h
  unfold getModel at h ⊢
  obtain ⟨l1, e1, h⟩ := bind_eq_ok h
  rw [e1, bind_ok]
  split at h
  · rename_i ha
    rw [if_pos ha]
    obtain ⟨rfl, h2⟩ := Prod.mk.inj (Res.ok.inj h)
    obtain ⟨_, rfl⟩ := Prod.mk.inj h2
    exact ⟨o', rfl, by simp⟩
  rename_i ha
  rw [if_neg ha]
  obtain ⟨⟨s, l2⟩, e2, h⟩ := bind_eq_ok h
  rw [e2, bind_ok]
  simp only at h ⊢
  split at h
  · cases h
  rename_i hlen
  rw [if_neg hlen]
  obtain ⟨d, e3, h⟩ := bind_eq_ok h
  obtain ⟨e, e4, h⟩ := bind_eq_ok h
  obtain ⟨rfl, h2⟩ := Prod.mk.inj (Res.ok.inj h)
  obtain ⟨rfl, rfl⟩ := Prod.mk.inj h2
  have hd : ∀ (x : Nat), ∃ d', (if s.f1 = true then decPrefix s.t1 0 else .ok x) = .ok d' := by
    intro x
    split
    · rename_i q; rw [if_pos q] at e3; exact ⟨d, e3⟩
    · exact ⟨x, rfl⟩
  have he : ∀ (x : Nat), ∃ d', (if s.f2 = true then decPrefix s.t2 0 else .ok x) = .ok d' := by
    intro x
    split
    · rename_i q; rw [if_pos q] at e4; exact ⟨e, e4⟩
    · exact ⟨x, rfl⟩
  cases hsp : splitModel s.name with
  | none =>
    obtain ⟨d', q1⟩ := hd o'.dash
    obtain ⟨e', q2⟩ := he o'.slash
    refine ⟨{ o' with opt := s.name, dash := d', slash := e', flags := (if s.f1 then 1 else 0) + (if s.f2 then 2 else 0) }, ?_,
      fun _ => ⟨rfl, rfl⟩⟩
    simp only
    rw [q1, bind_ok, q2, bind_ok]
  | some p =>
    obtain ⟨d', q1⟩ := hd o'.dash
    obtain ⟨e', q2⟩ := he o'.slash
    refine ⟨{ o' with opt := p.1, model := p.2, dash := d', slash := e', flags := (if s.f1 then 1 else 0) + (if s.f2 then 2 else 0) }, ?_,
      fun _ => ⟨rfl, rfl⟩⟩
    simp only
    rw [q1, bind_ok, q2, bind_ok]

example : getModel opt0 (chars "2030E/1" ++ [0]) =
    .ok (true, { opt0 with opt := chars "2030", model := 69, slash := 1, flags := 2 }, [0]) := rfl

/-- C69 fails: a line without model letter keeps the letter of the line before (and, on the first line, whatever was on
the stack).  After `2415U 0c0` the line `2415 1c0` is taken for a unit of an existing controller. -/
theorem C69_violated_stale_model :
    ∃ o, getModel opt0 (chars "2415U" ++ [0]) = .ok (true, o, [0]) ∧
      getModel o (chars "2415" ++ [0]) = .ok (true, { opt0 with opt := chars "2415", model := 85 }, [0]) ∧
      getModel opt0 (chars "2415" ++ [0]) = .ok (true, { opt0 with opt := chars "2415", model := 0 }, [0]) := ⟨_, rfl, rfl, rfl⟩

end Verif.Conf
