import Verif.Card.Tables
/- Properties C13-C15 and C61: column code tables. -/
namespace Verif.Card

theorem fillEbcdic_spec : ∀ (l : List Nat) (i : Nat) (a : Arr), l.Nodup → (∀ t ∈ l, t < a.size) →
    (∀ t ∈ l, a.get t = 0x100) →
    ∃ b, fillEbcdic l i a = some b ∧ b.size = a.size ∧ (∀ t, t ∉ l → b.get t = a.get t) ∧
      ∀ k, (h : k < l.length) → b.get l[k] = i + k := by
  intro l
  induction l with
  | nil => intro i a _ _ _; exact ⟨a, rfl, rfl, fun _ _ => rfl, fun k h => absurd h (by simp)⟩
  | cons t ts ih =>
    intro i a hn hs hf
    rw [List.nodup_cons] at hn
    have ht := hs t (by simp)
    obtain ⟨b, h1, h2, h3, h4⟩ := ih (i + 1) { a with get := fun j => if j = t then i else a.get j } hn.2
      (fun u hu => hs u (by simp [hu]))
      (fun u hu => by
        have : u ≠ t := fun e => hn.1 (e ▸ hu)
        simp [this, hf u (by simp [hu])])
    refine ⟨b, ?_, h2, ?_, ?_⟩
    · simp [fillEbcdic, Arr.rd, Arr.wr, ht, hf t, h1]
    · intro u hu
      simp at hu
      rw [h3 u hu.2]
      simp [hu.1]
    · intro k hk
      cases k with
      | zero => simp [h3 t hn.1]
      | succ k =>
        have := h4 k (by simpa using hk)
        simp only [List.getElem_cons_succ]
        omega

theorem ebcdicToHolTab_nodup : ebcdicToHolTab.Nodup := by decide +kernel
theorem ebcdicToHolTab_lt : ∀ t ∈ ebcdicToHolTab, t < 4096 := by decide +kernel
theorem ebcdicToHolTab_len : ebcdicToHolTab.length = 256 := by decide +kernel
theorem asciiToHol029Tab_len : asciiToHol029Tab.length = 128 := by decide +kernel

theorem holToEbcdicArr_spec : ∃ b, holToEbcdicArr = some b ∧ b.size = 4096 ∧
    (∀ t, t ∉ ebcdicToHolTab → b.get t = 0x100) ∧
    ∀ k, (h : k < ebcdicToHolTab.length) → b.get ebcdicToHolTab[k] = k := by
  obtain ⟨b, h1, h2, h3, h4⟩ := fillEbcdic_spec ebcdicToHolTab 0 { size := 4096, get := fun _ => 0x100 }
    ebcdicToHolTab_nodup ebcdicToHolTab_lt (fun _ _ => rfl)
  exact ⟨b, h1, h2, h3, fun k h => by simpa using h4 k h⟩

/-- C13. Every byte has a column code of 12 bits, which converts back to the same byte. -/
theorem C13_ebcdic_round_trip (e : Nat) (h : e < 256) :
    ∃ c, ebcdicToHol e = some c ∧ c < 4096 ∧ holToEbcdic c = some e := by
  obtain ⟨b, h1, h2, h3, h4⟩ := holToEbcdicArr_spec
  have hl : e < ebcdicToHolTab.length := by rw [ebcdicToHolTab_len]; exact h
  refine ⟨ebcdicToHolTab[e], by simp [ebcdicToHol, hl], ebcdicToHolTab_lt _ (List.getElem_mem hl), ?_⟩
  simp [holToEbcdic, h1, Arr.rd, h2, ebcdicToHolTab_lt _ (List.getElem_mem hl), h4 e hl]

/-- C13. No two bytes share a column code. -/
theorem C13_ebcdic_injective (e f : Nat) (he : e < 256) (hf : f < 256) (h : ebcdicToHol e = ebcdicToHol f) : e = f := by
  obtain ⟨c, h1, -, h2⟩ := C13_ebcdic_round_trip e he
  obtain ⟨d, h3, -, h4⟩ := C13_ebcdic_round_trip f hf
  rw [h1, h3] at h
  cases h
  rw [h2] at h4
  simpa using h4

/-- C14. A 12-bit column converts to byte `e` exactly when it is the code of `e`; every column that
is the code of no byte yields 0x100. -/
theorem C14_invalid_columns (c : Nat) (h : c < 4096) :
    (∀ e, e < 256 → (holToEbcdic c = some e ↔ ebcdicToHol e = some c)) ∧
    (holToEbcdic c = some 0x100 ↔ ∀ e, e < 256 → ebcdicToHol e ≠ some c) := by
  obtain ⟨b, h1, h2, h3, h4⟩ := holToEbcdicArr_spec
  have hc : holToEbcdic c = some (b.get c) := by simp [holToEbcdic, h1, Arr.rd, h2, h]
  have hmem : ∀ e, ebcdicToHol e = some c → b.get c = e := by
    intro e he
    unfold ebcdicToHol at he
    rw [List.getElem?_eq_some_iff] at he
    obtain ⟨hl, he⟩ := he
    rw [← he]; exact h4 e hl
  have hin : c ∈ ebcdicToHolTab → ∃ e, e < 256 ∧ ebcdicToHol e = some c := by
    intro hm
    obtain ⟨e, he, hE⟩ := List.getElem_of_mem hm
    exact ⟨e, by rw [← ebcdicToHolTab_len]; exact he, by simp [ebcdicToHol, he, hE]⟩
  rw [hc]
  constructor
  · intro e he
    constructor
    · intro hb
      simp at hb
      by_cases hm : c ∈ ebcdicToHolTab
      · obtain ⟨e', he', hE⟩ := hin hm
        have := hmem _ hE
        rw [hb] at this
        rw [this]; exact hE
      · rw [h3 c hm] at hb; omega
    · intro hE; rw [hmem e hE]
  · constructor
    · intro hb e he hE
      have := hmem e hE
      simp at hb
      omega
    · intro hno
      rw [h3 c]
      intro hm
      obtain ⟨e', he', hE⟩ := hin hm
      exact hno e' he' hE

/-- Codes of 13 bits or more are outside the table. -/
theorem C14_table_bound (c : Nat) : holToEbcdic c = none ↔ 4096 ≤ c := by
  obtain ⟨b, h1, h2, h3, h4⟩ := holToEbcdicArr_spec
  simp [holToEbcdic, h1, Arr.rd, h2]

/-! ### ASCII -/

theorem fillAscii_spec : ∀ (l : List Nat) (i : Nat) (a : Arr), (∀ t ∈ l, t &&& 0xf000 = 0 → t < a.size) →
    ∃ b, fillAscii l i a = some b ∧ b.size = a.size ∧
      (∀ t, (∃ k, ∃ (h : k < l.length), l[k] = t ∧ t &&& 0xf000 = 0 ∧ b.get t = i + k) ∨
            ((∀ u ∈ l, u = t → u &&& 0xf000 ≠ 0) ∧ b.get t = a.get t)) := by
  intro l
  induction l with
  | nil => intro i a _; exact ⟨a, rfl, rfl, fun t => Or.inr ⟨by simp, rfl⟩⟩
  | cons t ts ih =>
    intro i a hs
    by_cases ht : t &&& 0xf000 = 0
    · have hlt := hs t (by simp) ht
      obtain ⟨b, h1, h2, h3⟩ := ih (i + 1) { a with get := fun j => if j = t then i else a.get j }
        (fun u hu => hs u (by simp [hu]))
      refine ⟨b, ?_, h2, ?_⟩
      · simp [fillAscii, ht, Arr.wr, hlt, h1]
      · intro u
        rcases h3 u with ⟨k, hk, e1, e2, e3⟩ | ⟨hn, hg⟩
        · left; exact ⟨k + 1, by simpa using hk, by simpa using e1, e2, by omega⟩
        · by_cases hu : u = t
          · left; exact ⟨0, by simp, by simp [hu], by rw [hu]; exact ht, by rw [hg]; simp [hu]⟩
          · right
            refine ⟨?_, by rw [hg]; simp [hu]⟩
            intro v hv hvu
            simp at hv
            rcases hv with rfl | hv
            · exact absurd hvu.symm hu
            · exact hn v hv hvu
    · obtain ⟨b, h1, h2, h3⟩ := ih (i + 1) a (fun u hu => hs u (by simp [hu]))
      refine ⟨b, ?_, h2, ?_⟩
      · simp [fillAscii, ht, h1]
      · intro u
        rcases h3 u with ⟨k, hk, e1, e2, e3⟩ | ⟨hn, hg⟩
        · left; exact ⟨k + 1, by simpa using hk, by simpa using e1, e2, by omega⟩
        · right
          refine ⟨?_, hg⟩
          intro v hv hvu
          simp at hv
          rcases hv with rfl | hv
          · exact ht
          · exact hn v hv hvu

theorem asciiToHol029Tab_lt : ∀ t ∈ asciiToHol029Tab, t &&& 0xf000 = 0 → t < 4096 := by decide +kernel

/-- The reverse table: a column is either some character's code and maps to such a character, or
maps to 0xff. -/
theorem holToAscii_spec (h : Nat) (hh : h < 4096) :
    (∃ c, c < 128 ∧ holToAscii h = some c ∧ asciiToHol029Tab[c]? = some h ∧ h &&& 0xf000 = 0) ∨
    (holToAscii h = some 0xff ∧ ∀ c : Nat, asciiToHol029Tab[c]? ≠ some h) := by
  obtain ⟨b, h1, h2, h3⟩ := fillAscii_spec asciiToHol029Tab 0 { size := 4096, get := fun _ => 0xff }
    asciiToHol029Tab_lt
  have hb : holToAscii h = some (b.get h) := by
    simp [holToAscii, holToAsciiArr, h1, Arr.rd, h2, hh]
  have hand : h &&& 0xf000 = 0 := by
    have h12 : h &&& 0xfff = h := by
      have := Nat.and_two_pow_sub_one_of_lt_two_pow (x := h) (n := 12) (by simpa using hh)
      simpa using this
    rw [← h12, Nat.and_assoc]
    simp
  rcases h3 h with ⟨k, hk, e1, e2, e3⟩ | ⟨hn, hg⟩
  · left
    refine ⟨k, by rw [← asciiToHol029Tab_len]; exact hk, by rw [hb, e3]; simp, by simp [hk, e1], e2⟩
  · right
    refine ⟨by rw [hb, hg], ?_⟩
    intro c hc
    rw [List.getElem?_eq_some_iff] at hc
    obtain ⟨hl, he⟩ := hc
    exact hn _ (List.getElem_mem hl) he (by rw [he]; exact hand)

/-- C15. The column of every text character that has one converts back to a character with that
same column; it is the character itself except that `^` comes back as `{`. -/
theorem C15_text_character_round_trip (c col : Nat) (h : asciiToHol029Tab[c]? = some col) (hv : col < 4096) :
    ∃ c', holToAscii col = some c' ∧ c' < 128 ∧ asciiToHol029Tab[c']? = some col ∧
      (c' = c ∨ (c = '^'.toNat ∧ c' = '{'.toNat)) := by
  rcases holToAscii_spec col hv with ⟨c', h1, h2, h3, h4⟩ | ⟨-, hn⟩
  · refine ⟨c', h2, h1, h3, ?_⟩
    have key : ∀ a b : Fin 128, ∀ t, asciiToHol029Tab[a.val]? = some t → asciiToHol029Tab[b.val]? = some t →
        t < 4096 → a = b ∨ (a.val = 94 ∧ b.val = 123) ∨ (a.val = 123 ∧ b.val = 94) := by
      have k : ∀ a b : Fin 128, asciiToHol029Tab[a.val]?.any (· < 4096) → asciiToHol029Tab[a.val]? = asciiToHol029Tab[b.val]? →
          a = b ∨ (a.val = 94 ∧ b.val = 123) ∨ (a.val = 123 ∧ b.val = 94) := by decide +kernel
      intro a b t ha hb ht
      exact k a b (by rw [ha]; simpa using ht) (by rw [ha, hb])
    have hc : c < 128 := by
      rw [List.getElem?_eq_some_iff] at h
      obtain ⟨hl, -⟩ := h
      rwa [asciiToHol029Tab_len] at hl
    rcases key ⟨c, hc⟩ ⟨c', h1⟩ col h h3 hv with e | e | e
    · left; simpa using e.symm
    · right; exact e
    · -- the reverse table holds the later character
      exfalso
      simp only at e
      have hcol : asciiToHol029Tab[123]? = some 0x406 := by decide +kernel
      rw [e.1, hcol] at h
      cases h
      have : holToAscii 0x406 = some 123 := by decide +kernel
      rw [this] at h2
      simp at h2
      omega
  · exact absurd h (hn c)

/-- All printable characters have a column, control characters and DEL do not. -/
theorem C15_printable_have_columns (c : Nat) (h : c < 128) :
    (∃ col, asciiToHol029Tab[c]? = some col ∧ col < 4096) ↔ 0x20 ≤ c ∧ c < 0x7f := by
  have key : ∀ c : Fin 128, asciiToHol029Tab[c.val]?.any (· < 4096) = decide (0x20 ≤ c.val ∧ c.val < 0x7f) := by
    decide +kernel
  have := key ⟨c, h⟩
  rw [Bool.eq_iff_iff, Option.any_eq_true] at this
  simpa using this

/-- The full claim C61: the two public conversion functions are inverse on printable characters. -/
def AsciiColumnRoundTrip : Prop :=
  ∀ c, 0x20 ≤ c → c < 0x7f → (asciiToHol c).bind holToAscii = some c

/-- C61 is violated: `+` converts to the column of `&`. -/
theorem C61_violated_plus : ¬ AsciiColumnRoundTrip ∧ (asciiToHol '+'.toNat).bind holToAscii = some '&'.toNat := by
  have e : (asciiToHol '+'.toNat).bind holToAscii = some '&'.toNat := by decide +kernel
  refine ⟨fun h => ?_, e⟩
  have := h '+'.toNat (by decide) (by decide)
  rw [e] at this
  revert this
  decide

/-- C61, partial: exactly the characters `+ [ \ ] ^ { }` fail. -/
theorem C61_ascii_column_round_trip_partial (c : Nat) (h1 : 0x20 ≤ c) (h2 : c < 0x7f) :
    (asciiToHol c).bind holToAscii = some c ↔ c ∉ ['+', '[', '\\', ']', '^', '{', '}'].map Char.toNat := by
  have key : ∀ c : Fin 0x7f, 0x20 ≤ c.val → ((asciiToHol c).bind holToAscii = some c.val ↔
      c.val ∉ ['+', '[', '\\', ']', '^', '{', '}'].map Char.toNat) := by decide +kernel
  exact key ⟨c, h2⟩ h1

/-- C61. Bytes from 0x80 up are outside the 128-entry table of `ascii_to_hol`. -/
theorem C61_high_bytes_out_of_table (c : Nat) : asciiToHol c = none ↔ 128 ≤ c := by
  have : asciiToHolEbcdicTab.length = 128 := by decide +kernel
  simp [asciiToHol, this]

example : ebcdicToHol 0xc1 = some 0x900 := by decide +kernel
example : asciiToHol029Tab['A'.toNat]? = some 0x900 := by decide +kernel

end Verif.Card
