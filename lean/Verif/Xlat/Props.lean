import Verif.Xlat.Model
/- Properties C10-C12: parity and character tables.  Each table is checked entry by entry by the
kernel and the result lifted to every value of the type. -/
namespace Verif.Xlat

/-- Number of one bits among the low `k` bits of `n`. -/
def ones : Nat → Nat → Nat
  | 0, _ => 0
  | k+1, n => n % 2 + ones k (n / 2)

/-- C10. Every byte gets exactly one parity bit, in position 8, the byte itself is unchanged and the
9-bit total is odd. -/
theorem C10_parity_bit_makes_total_odd (v : Nat) (h : v < 256) :
    ∃ b, withParity v = some b ∧ b < 512 ∧ b % 256 = v ∧ ones 9 b % 2 = 1 := by
  have : ∀ v : Fin 256, (withParity v).any (fun b : Nat => b < 512 ∧ b % 256 = v.val ∧ ones 9 b % 2 = 1) := by
    decide +kernel
  have := this ⟨v, h⟩
  rw [Option.any_eq_true] at this
  obtain ⟨b, hb, h⟩ := this
  exact ⟨b, hb, by simpa using h⟩

/-- C10. The check accepts a 9-bit value exactly when its number of one bits is odd. -/
theorem C10_check_accepts_odd (bus : Nat) (h : bus < 512) :
    parityError bus = some (decide (ones 9 bus % 2 ≠ 1)) := by
  have : ∀ v : Fin 512, parityError v = some (decide (ones 9 v % 2 ≠ 1)) := by decide +kernel
  exact this ⟨bus, h⟩

/-- The full claim C11 for 7-track frames: a written frame has the parity asked for, and passes the
check of a read in the same mode. -/
def SevenTrackParity : Prop :=
  ∀ odd data, data < 256 → ∃ f, frame7 odd data = some f ∧
    (ones 7 f % 2 = 1 ↔ odd = true) ∧ frame7Error odd f = some false

/-- C11 is violated: an odd parity frame is written with even parity. -/
theorem C11_violated_seven_track : ¬ SevenTrackParity := by
  intro h
  obtain ⟨f, h1, h2, -⟩ := h true 1 (by decide)
  have : frame7 true 1 = some 65 := by decide +kernel
  rw [this] at h1
  cases h1
  revert h2
  decide +kernel

/-- C11, what the code does instead: every frame is written with even parity whatever the mode, its
six data bits intact, and every frame it writes is reported as a data check when read. -/
theorem C11_seven_track_always_even_partial (odd : Bool) (data : Nat) :
    ∃ f, frame7 odd data = some f ∧ f &&& 0o77 = data &&& 0o77 ∧ ones 7 f % 2 = 0 ∧
      frame7Error odd f = some true := by
  have hlt : data &&& 0o77 < 64 := Nat.lt_of_le_of_lt Nat.and_le_right (by decide)
  have key : ∀ odd : Bool, ∀ v : Fin 64, (frame7 odd v).any (fun f : Nat => f &&& 0o77 = v.val ∧ ones 7 f % 2 = 0 ∧
      frame7Error odd f = some true) := by decide +kernel
  have := key odd ⟨_, hlt⟩
  rw [Option.any_eq_true] at this
  obtain ⟨f, hf, h⟩ := this
  refine ⟨f, ?_, by simpa using h⟩
  rw [← hf]
  unfold frame7
  simp [Nat.and_assoc]

/-- C11. The BCD table maps all 64 codes, distinct codes to distinct EBCDIC codes. -/
theorem C11_bcd_injective (a b : Nat) (ha : a < 64) (hb : b < 64) (h : bcdToEbcdic a = bcdToEbcdic b) :
    a = b ∧ ∃ e, bcdToEbcdic a = some e ∧ e < 256 := by
  have key : ∀ a b : Fin 64, bcdToEbcdic a = bcdToEbcdic b → a = b := by decide +kernel
  have key2 : ∀ a : Fin 64, (bcdToEbcdic a).any (· < 256) := by decide +kernel
  have h1 := key ⟨a, ha⟩ ⟨b, hb⟩ h
  have h2 := key2 ⟨a, ha⟩
  rw [Option.any_eq_true] at h2
  obtain ⟨e, he, hlt⟩ := h2
  exact ⟨by simpa using h1, e, he, by simpa using hlt⟩

/-- The full claim C12. -/
def AsciiRoundTrip : Prop :=
  ∀ c, 0x20 ≤ c → c < 0x7f → (asciiToEbcdic c).bind ebcdicToAscii = some c

/-- C12 is violated: `[` has no EBCDIC code in one table although the other maps one back to it. -/
theorem C12_violated_bracket : ¬ AsciiRoundTrip ∧ ebcdicToAscii 0x4a = some '['.toNat := by
  refine ⟨fun h => ?_, by decide +kernel⟩
  have := h '['.toNat (by decide) (by decide)
  revert this
  decide +kernel

/-- C12, partial: every printable character other than `[`, `]` and `|` survives, and exactly those
three do not. -/
theorem C12_round_trip_partial (c : Nat) (h1 : 0x20 ≤ c) (h2 : c < 0x7f) :
    (asciiToEbcdic c).bind ebcdicToAscii = some c ↔ c ≠ '['.toNat ∧ c ≠ ']'.toNat ∧ c ≠ '|'.toNat := by
  have key : ∀ c : Fin 0x7f, 0x20 ≤ c.val →
      ((asciiToEbcdic c).bind ebcdicToAscii = some c.val ↔ c.val ≠ 91 ∧ c.val ≠ 93 ∧ c.val ≠ 124) := by decide +kernel
  exact key ⟨c, h2⟩ h1

example : withParity 0x03 = some 0x103 ∧ withParity 0x07 = some 0x007 := by decide +kernel
example : parityError 0x103 = some false ∧ parityError 0x003 = some true := by decide +kernel
example : (asciiToEbcdic 'A'.toNat) = some 0xc1 := by decide +kernel

end Verif.Xlat
