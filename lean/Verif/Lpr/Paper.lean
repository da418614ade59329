import Verif.Lpr.Print
/-!
# Lines and pages of the 1443 printer (C46, C47, C94, C95)
-/
namespace Verif.Lpr
open Verif.Bus
open Verif.Card (Res look)

namespace Spec

/-- The printer prints into the file `f`, on the only carriage tape there is. -/
structure Loaded (s : S) (f : List Nat) : Prop where
  file : s.file = some f
  fcb : s.fcb = legacy
  lpp : s.lpp = 66
  row : s.row ≤ 66

/-- The printer holds the line `bs`. -/
structure Holds (s : S) (bs : List Nat) : Prop where
  col : s.col = bs.length
  len : bs.length ≤ 120
  buf : ∀ j, j < bs.length → s.buf[j]? = bs[j]?
  byte : ∀ v ∈ bs, v < 256

/-- Write (or immediate) with `n` lines of spacing, or a skip to channel `ch`: the command bytes. -/
def writeSpace (n : Nat) : Nat := 8 * n + 1
def writeSkip (ch : Nat) : Nat := 128 + 8 * ch + 1
def spaceNow (n : Nat) : Nat := 8 * n + 3
def skipNow (ch : Nat) : Nat := 128 + 8 * ch + 3

/-- Print lines one after the other, all with the same command. -/
def again : Nat → S → Res S
  | 0, s => .ok s
  | n + 1, s => (printLine s).bind fun r => again n r.1

end Spec

theorem printBuf_ok {s : S} {f bs : List Nat} (hf : s.file = some f) (hb : Spec.Holds s bs) (hc : s.cmd &&& 7 = 1) :
    printBuf s = .ok { s with file := some (f ++ trim (bs.map Spec.glyph)), buf := List.replicate 144 0x40404040 } := by
  have e : chars s.buf s.col 0 = .ok (bs.map Spec.glyph) := by
    rw [hb.col]; exact chars_ok s.buf bs 0 (by have := hb.len; omega) (by simpa using hb.buf) hb.byte
  unfold printBuf
  have e2 : put s (trim (bs.map Spec.glyph)) = .ok { s with file := some (f ++ trim (bs.map Spec.glyph)) } := by unfold put; rw [hf]
  rw [if_pos hc, e, bk, e2, bk]

theorem printBuf_skip {s : S} (hc : s.cmd &&& 7 ≠ 1) : printBuf s = .ok s := if_neg hc

theorem pageEnd_no (p : Sp) (h : p.s.row ≤ 66) (hp : p.s.lpp = 66) : pageEnd p = .ok p := if_neg (by omega)

/-- What the two channel indications add. -/
def withCh (s : S) (c9 c12 : Bool) : S :=
  { s with sense := if c9 then s.sense ||| eChan9 else s.sense, status := if c12 then s.status ||| sUnitExp else s.status }

theorem indicate_write (s : S) (c9 c12 : Bool) (r : Nat) (hc : s.cmd &&& 3 = 1) : indicate ⟨s, c9, c12, r⟩ = withCh s c9 c12 := by
  cases c9 <;> cases c12 <;> simp [indicate, withCh, hc]

theorem indicate_feed (s : S) (c9 c12 : Bool) (r : Nat) (hc : s.cmd &&& 3 ≠ 1) : indicate ⟨s, c9, c12, r⟩ = s := by
  simp [indicate, hc]

theorem chan_of (ch : Nat) (h : ch ≤ 12) : (16 + ch) &&& 0xf = ch := by
  have key : ∀ ch : Fin 13, (16 + ch.val) &&& 0xf = ch.val := by decide
  exact key ⟨ch, by omega⟩

theorem cmd_write (n : Nat) (h : n ≤ 3) : Spec.writeSpace n &&& 7 = 1 ∧ Spec.writeSpace n &&& 3 = 1 ∧ (Spec.writeSpace n >>> 3) &&& 0x1f = n := by
  have key : ∀ n : Fin 4, Spec.writeSpace n &&& 7 = 1 ∧ Spec.writeSpace n &&& 3 = 1 ∧ (Spec.writeSpace n >>> 3) &&& 0x1f = n.val := by decide
  exact key ⟨n, by omega⟩

theorem cmd_writeSkip (n : Nat) (h : n ≤ 12) : Spec.writeSkip n &&& 7 = 1 ∧ (Spec.writeSkip n >>> 3) &&& 0x1f = 16 + n := by
  have key : ∀ n : Fin 13, Spec.writeSkip n &&& 7 = 1 ∧ (Spec.writeSkip n >>> 3) &&& 0x1f = 16 + n.val := by decide
  exact key ⟨n, by omega⟩

theorem cmd_feed (n : Nat) (h : n ≤ 3) : Spec.spaceNow n &&& 7 ≠ 1 ∧ Spec.spaceNow n &&& 3 ≠ 1 ∧ (Spec.spaceNow n >>> 3) &&& 0x1f = n := by
  have key : ∀ n : Fin 4, Spec.spaceNow n &&& 7 ≠ 1 ∧ Spec.spaceNow n &&& 3 ≠ 1 ∧ (Spec.spaceNow n >>> 3) &&& 0x1f = n.val := by decide
  exact key ⟨n, by omega⟩

theorem cmd_feedSkip (n : Nat) (h : n ≤ 12) : Spec.skipNow n &&& 7 ≠ 1 ∧ (Spec.skipNow n >>> 3) &&& 0x1f = 16 + n := by
  have key : ∀ n : Fin 13, Spec.skipNow n &&& 7 ≠ 1 ∧ (Spec.skipNow n >>> 3) &&& 0x1f = 16 + n.val := by decide
  exact key ⟨n, by omega⟩

/-! ## The four kinds of motion -/

theorem print_space {s : S} {f bs : List Nat} (n : Nat) (hl : Spec.Loaded s f) (hb : Spec.Holds s bs) (hn : n ≤ 3) (hc : s.cmd = Spec.writeSpace n) (hr : s.row + n ≤ 66) :
    printLine s = .ok (withCh { s with file := some (f ++ trim (bs.map Spec.glyph) ++ Spec.newlines n), buf := List.replicate 144 0x40404040, row := s.row + n } (passed 9 s.row n) (passed 12 s.row n), 31 + 5 * n) := by
  obtain ⟨c1, c2, c3⟩ := cmd_write n hn
  rw [← hc] at c1 c2 c3
  unfold printLine
  rw [printBuf_ok hl.file hb c1, bk]
  simp only [c3]
  rw [if_pos (by omega)]
  have k := spaceLoop_ok n { s with file := some (f ++ trim (bs.map Spec.glyph)), buf := List.replicate 144 0x40404040 } (f ++ trim (bs.map Spec.glyph)) false false 0 rfl hl.fcb hl.lpp hr
  rw [k, bk, pageEnd_no _ (by show s.row + n ≤ 66; omega) hl.lpp, bk, indicate_write _ _ _ _ (by exact c2)]
  simp only [c1, if_true, Bool.false_or, Nat.zero_add]

theorem print_space_oob {s : S} {f bs : List Nat} (n : Nat) (hl : Spec.Loaded s f) (hb : Spec.Holds s bs) (hn : n ≤ 3) (hc : s.cmd = Spec.writeSpace n) (hr : 66 < s.row + n) :
    printLine s = .oob := by
  obtain ⟨c1, c2, c3⟩ := cmd_write n hn
  rw [← hc] at c1 c2 c3
  unfold printLine
  rw [printBuf_ok hl.file hb c1, bk]
  simp only [c3]
  rw [if_pos (by omega)]
  have k := spaceLoop_oob n { s with file := some (f ++ trim (bs.map Spec.glyph)), buf := List.replicate 144 0x40404040 } (f ++ trim (bs.map Spec.glyph)) false false 0 rfl hl.fcb hl.lpp hl.row hr
  rw [k]
  rfl

theorem feed_space {s : S} {f : List Nat} (n : Nat) (hl : Spec.Loaded s f) (hn : n ≤ 3) (hc : s.cmd = Spec.spaceNow n) (hr : s.row + n ≤ 66) :
    printLine s = .ok ({ s with file := some (f ++ Spec.newlines n), row := s.row + n }, 20 + 5 * n) := by
  obtain ⟨c1, c2, c3⟩ := cmd_feed n hn
  rw [← hc] at c1 c2 c3
  unfold printLine
  rw [printBuf_skip c1, bk]
  simp only [c3]
  rw [if_pos (by omega)]
  have k := spaceLoop_ok n s f false false 0 hl.file hl.fcb hl.lpp hr
  rw [k, bk, pageEnd_no _ (by show s.row + n ≤ 66; omega) hl.lpp, bk, indicate_feed _ _ _ _ (by exact c2)]
  simp only [if_neg c1, Nat.zero_add]

theorem feed_space_oob {s : S} {f : List Nat} (n : Nat) (hl : Spec.Loaded s f) (hn : n ≤ 3) (hc : s.cmd = Spec.spaceNow n) (hr : 66 < s.row + n) :
    printLine s = .oob := by
  obtain ⟨c1, c2, c3⟩ := cmd_feed n hn
  rw [← hc] at c1 c2 c3
  unfold printLine
  rw [printBuf_skip c1, bk]
  simp only [c3]
  rw [if_pos (by omega), spaceLoop_oob n s f false false 0 hl.file hl.fcb hl.lpp hl.row hr]
  rfl

theorem print_skip {s : S} {f bs : List Nat} (ch k : Nat) (hl : Spec.Loaded s f) (hb : Spec.Holds s bs) (h1 : 1 ≤ ch) (h2 : ch ≤ 12) (hc : s.cmd = Spec.writeSkip ch) (hk : Spec.NextStop s.row ch k) :
    printLine s = .ok ({ s with file := some (f ++ trim (bs.map Spec.glyph) ++ Spec.newlines (k - 1 - s.row)), buf := List.replicate 144 0x40404040, row := k - 1 }, k - 1 - s.row) := by
  obtain ⟨c1, c3⟩ := cmd_writeSkip ch h2
  rw [← hc] at c1 c3
  unfold printLine
  rw [printBuf_ok hl.file hb c1, bk]
  simp only [c3]
  rw [if_neg (by omega)]
  exact skip_ok { s with file := some (f ++ trim (bs.map Spec.glyph)), buf := List.replicate 144 0x40404040 } _ ch k rfl hl.fcb hl.lpp hl.row _ (chan_of ch h2) hk

theorem print_skip_oob {s : S} {f bs : List Nat} (ch : Nat) (hl : Spec.Loaded s f) (hb : Spec.Holds s bs) (h1 : 1 ≤ ch) (h2 : ch ≤ 12) (hc : s.cmd = Spec.writeSkip ch) (hk : ∀ k, ¬ Spec.NextStop s.row ch k) :
    printLine s = .oob := by
  obtain ⟨c1, c3⟩ := cmd_writeSkip ch h2
  rw [← hc] at c1 c3
  unfold printLine
  rw [printBuf_ok hl.file hb c1, bk]
  simp only [c3]
  rw [if_neg (by omega)]
  exact skip_oob { s with file := some (f ++ trim (bs.map Spec.glyph)), buf := List.replicate 144 0x40404040 } ch hl.fcb hl.lpp hl.row _ (chan_of ch h2) hk

theorem feed_skip {s : S} {f : List Nat} (ch k : Nat) (hl : Spec.Loaded s f) (h1 : 1 ≤ ch) (h2 : ch ≤ 12) (hc : s.cmd = Spec.skipNow ch) (hk : Spec.NextStop s.row ch k) :
    printLine s = .ok ({ s with file := some (f ++ Spec.newlines (k - 1 - s.row)), row := k - 1 }, k - 1 - s.row) := by
  obtain ⟨c1, c3⟩ := cmd_feedSkip ch h2
  rw [← hc] at c1 c3
  unfold printLine
  rw [printBuf_skip c1, bk]
  simp only [c3]
  rw [if_neg (by omega)]
  exact skip_ok s _ ch k hl.file hl.fcb hl.lpp hl.row _ (chan_of ch h2) hk

theorem feed_skip_oob {s : S} {f : List Nat} (ch : Nat) (hl : Spec.Loaded s f) (h1 : 1 ≤ ch) (h2 : ch ≤ 12) (hc : s.cmd = Spec.skipNow ch) (hk : ∀ k, ¬ Spec.NextStop s.row ch k) :
    printLine s = .oob := by
  obtain ⟨c1, c3⟩ := cmd_feedSkip ch h2
  rw [← hc] at c1 c3
  unfold printLine
  rw [printBuf_skip c1, bk]
  simp only [c3]
  rw [if_neg (by omega)]
  exact skip_oob s ch hl.fcb hl.lpp hl.row _ (chan_of ch h2) hk

/-! ## C47 -/

/-- **C47** (part): a print command with spacing puts the characters of the line on the paper, in order and without trailing
blanks, followed by as many new lines as the command says.  Missing: the end of the page, see `C46_violated_line_67`; and a
blank line leaves one blank, see `C47_violated_blank_line`. -/
theorem C47_print_line_partial {s : S} {f bs : List Nat} (n : Nat) (hl : Spec.Loaded s f) (hb : Spec.Holds s bs) (hn : n ≤ 3) (hc : s.cmd = Spec.writeSpace n) (hr : s.row + n ≤ 66) :
    ∃ s' d t, printLine s = .ok (s', d) ∧ Spec.Trimmed (bs.map Spec.glyph) t ∧ s'.file = some (f ++ t ++ Spec.newlines n) ∧ s'.row = s.row + n :=
  ⟨_, _, _, print_space n hl hb hn hc hr, trim_spec _, rfl, rfl⟩

/-- A printer that holds a line "A B  ". -/
def exLine : S := { create 0x0e (some [1, 2]) true with buf := [0xc1, 0x40, 0xc2, 0x40, 0x40] ++ List.replicate 139 0, col := 5, cmd := Spec.writeSpace 2 }

theorem exLine_ok : Spec.Loaded exLine [1, 2] ∧ Spec.Holds exLine [0xc1, 0x40, 0xc2, 0x40, 0x40] := by
  refine ⟨⟨rfl, rfl, rfl, by decide⟩, rfl, by decide, ?_, by decide⟩
  intro j hj
  have key : ∀ j : Fin 5, exLine.buf[j.val]? = [0xc1, 0x40, 0xc2, 0x40, 0x40][j.val]? := by decide
  exact key ⟨j, hj⟩

example : ∃ d, (printLine exLine).bind (fun r => .ok (r.1.file, r.2)) = .ok (some [1, 2, 65, 32, 66, 13, 10, 13, 10], d) := ⟨_, rfl⟩

/-- **C47**, violated: a line of any number of blanks leaves a blank on the paper. -/
theorem C47_violated_blank_line {s : S} {f : List Nat} (m : Nat) (hm : 0 < m) (hl : Spec.Loaded s f) (hb : Spec.Holds s (List.replicate m 0x40)) (hc : s.cmd = Spec.writeSpace 0) :
    ∃ s' d, printLine s = .ok (s', d) ∧ s'.file = some (f ++ [0x20]) := by
  refine ⟨_, _, print_space 0 hl hb (by decide) hc (by have := hl.row; omega), ?_⟩
  have g : Spec.glyph 0x40 = 0x20 := by decide +kernel
  have t := trim_spec ((List.replicate m 0x40).map Spec.glyph)
  have u : Spec.Trimmed ((List.replicate m 0x40).map Spec.glyph) [0x20] := by
    obtain ⟨q, rfl⟩ : ∃ q, m = q + 1 := ⟨m - 1, by omega⟩
    exact ⟨⟨q, by simp [g, List.replicate_succ]⟩, by simp, by simp⟩
  have e := trimmed_unique t u
  show some (f ++ trim ((List.replicate m 0x40).map Spec.glyph) ++ Spec.newlines 0) = _
  rw [e]
  simp [Spec.newlines]

/-! ## C46 and C95: the end of the page -/

theorem again_ok (n : Nat) : ∀ (s : S) (f : List Nat), Spec.Loaded s f → s.cmd = Spec.spaceNow 1 → s.row + n ≤ 66 →
    Spec.again n s = .ok { s with file := some (f ++ Spec.newlines n), row := s.row + n } := by
  induction n with
  | zero => intro s f hl _ _; simp [Spec.again, Spec.newlines, ← hl.file]
  | succ n ih =>
    intro s f hl hc hr
    simp only [Spec.again]
    rw [feed_space 1 hl (by decide) hc (by omega), bk]
    have k := ih { s with file := some (f ++ Spec.newlines 1), row := s.row + 1 } _ ⟨rfl, hl.fcb, hl.lpp, by show s.row + 1 ≤ 66; omega⟩ hc (by show s.row + 1 + n ≤ 66; omega)
    refine k.trans ?_
    have e : f ++ Spec.newlines 1 ++ Spec.newlines n = f ++ Spec.newlines (n + 1) := by
      rw [newlines_succ n, List.append_assoc]; rfl
    simp only [e, Nat.add_assoc, Nat.add_comm 1 n]

/-- **C95**, violated: on a form of 66 lines the paper is spaced 66 times without a form feed being written and the line
count going back, and **C46**, violated: the next line is looked up behind the end of the carriage control tape. -/
theorem C46_violated_line_67 (s : S) (f : List Nat) (hl : Spec.Loaded s f) (hc : s.cmd = Spec.spaceNow 1) (h0 : s.row = 0) :
    (∃ s', Spec.again 66 s = .ok s' ∧ s'.row = 66 ∧ s'.file = some (f ++ Spec.newlines 66) ∧ 12 ∉ Spec.newlines 66) ∧ Spec.again 67 s = .oob := by
  have k := again_ok 66 s f hl hc (by omega)
  refine ⟨⟨_, k, by show s.row + 66 = 66; omega, rfl, by decide⟩, ?_⟩
  have split : ∀ (n : Nat) (s s' : S), Spec.again n s = .ok s' → Spec.again (n + 1) s = (printLine s').bind fun r => .ok r.1 := by
    intro n
    induction n with
    | zero => intro s s' h; have := Res.ok.inj h; subst this; rfl
    | succ n ih =>
      intro s s' h
      obtain ⟨r, a, b⟩ := bind_inv h
      have := ih r.1 s' b
      show (printLine s).bind _ = _
      rw [a, bk]
      exact this
  rw [split 66 s _ k, feed_space_oob (s := { s with file := some (f ++ Spec.newlines 66), row := s.row + 66 }) 1 (f := f ++ Spec.newlines 66) ⟨rfl, hl.fcb, hl.lpp, by show s.row + 66 ≤ 66; omega⟩ (by decide) hc (by show 66 < s.row + 66 + 1; omega)]
  rfl

example : ∃ s, Spec.Loaded s [] ∧ s.cmd = Spec.spaceNow 1 ∧ s.row = 0 := ⟨{ create 0x0e (some []) true with cmd := 0x0b }, ⟨rfl, rfl, rfl, by decide⟩, rfl, rfl⟩

/-- **C46**, exactly which motions stay on the tape: spacing that ends at line 66 at most, skipping to a channel that is
still below.  A motion off the tape is an access outside of it. -/
theorem C46_motion_exact {s : S} {f : List Nat} (hl : Spec.Loaded s f) :
    (∀ n ≤ 3, s.cmd = Spec.spaceNow n → ((∃ r, printLine s = .ok r) ↔ s.row + n ≤ 66)) ∧
    (∀ ch, 1 ≤ ch → ch ≤ 12 → s.cmd = Spec.skipNow ch → ((∃ r, printLine s = .ok r) ↔ ∃ k, Spec.NextStop s.row ch k)) ∧
    (∀ bs, Spec.Holds s bs → (∀ n ≤ 3, s.cmd = Spec.writeSpace n → ((∃ r, printLine s = .ok r) ↔ s.row + n ≤ 66)) ∧
      (∀ ch, 1 ≤ ch → ch ≤ 12 → s.cmd = Spec.writeSkip ch → ((∃ r, printLine s = .ok r) ↔ ∃ k, Spec.NextStop s.row ch k))) := by
  have no : ∀ {s : S}, printLine s = .oob → ¬ ∃ r, printLine s = .ok r := fun h ⟨r, e⟩ => by rw [h] at e; cases e
  refine ⟨fun n hn hc => ⟨fun h => ?_, fun h => ⟨_, feed_space n hl hn hc h⟩⟩, fun ch h1 h2 hc => ⟨fun h => ?_, fun ⟨k, hk⟩ => ⟨_, feed_skip ch k hl h1 h2 hc hk⟩⟩, fun bs hb => ⟨fun n hn hc => ⟨fun h => ?_, fun h => ⟨_, print_space n hl hb hn hc h⟩⟩, fun ch h1 h2 hc => ⟨fun h => ?_, fun ⟨k, hk⟩ => ⟨_, print_skip ch k hl hb h1 h2 hc hk⟩⟩⟩⟩
  · exact Classical.byContradiction fun q => no (feed_space_oob n hl hn hc (by omega)) h
  · exact Classical.byContradiction fun q => no (feed_skip_oob ch hl h1 h2 hc (fun k hk => q ⟨k, hk⟩)) h
  · exact Classical.byContradiction fun q => no (print_space_oob n hl hb hn hc (by omega)) h
  · exact Classical.byContradiction fun q => no (print_skip_oob ch hl hb h1 h2 hc (fun k hk => q ⟨k, hk⟩)) h

/-! ## C94 -/

/-- **C94**, violated, and **C46**: skipping to channel 1, the top of the form, leaves the tape wherever the paper is. -/
theorem C94_violated_top_of_form {s : S} {f : List Nat} (hl : Spec.Loaded s f) (hc : s.cmd = Spec.skipNow 1) : printLine s = .oob := by
  refine feed_skip_oob 1 hl (by decide) (by decide) hc ?_
  intro k hk
  have key : ∀ p ∈ Spec.stops, p.1 = 1 → p.2 = 0 := by decide
  have := key _ hk.1 rfl
  have := hk.2
  omega

/-- **C94**, violated: when a skip stays on the tape the paper stops on the line above the one with the channel, which
does not have the channel; skipping again leaves it there. -/
theorem C94_violated_one_line_short {s : S} {f : List Nat} (ch k : Nat) (hl : Spec.Loaded s f) (h1 : 1 ≤ ch) (h2 : ch ≤ 12) (hc : s.cmd = Spec.skipNow ch) (hk : Spec.NextStop s.row ch k) :
    ∃ s' d, printLine s = .ok (s', d) ∧ s'.row + 1 = k ∧ s'.file = some (f ++ Spec.newlines (s'.row - s.row)) ∧ (ch, s'.row) ∉ Spec.stops ∧ printLine s' = .ok (s', 0) := by
  have hlt := hk.2
  have hst : ∀ p ∈ Spec.stops, p.2 < 66 := by decide
  have hk66 := hst _ hk.1
  have hN : Spec.newlines 0 = [] := rfl
  have k2 := feed_skip (s := { s with file := some (f ++ Spec.newlines (k - 1 - s.row)), row := k - 1 }) ch k ⟨rfl, hl.fcb, hl.lpp, by show k - 1 ≤ 66; simp at hk66; omega⟩ h1 h2 hc ⟨hk.1, by show k - 1 < k; omega⟩
  refine ⟨_, _, feed_skip ch k hl h1 h2 hc hk, by show k - 1 + 1 = k; omega, rfl, ?_, ?_⟩
  · intro hm
    have key : ∀ p ∈ Spec.stops, ∀ q ∈ Spec.stops, p.1 = q.1 → p.2 = q.2 := by decide
    have := key _ hm _ hk.1 rfl
    simp at this
    omega
  · refine k2.trans ?_
    simp [hN]

example : ∃ s, Spec.Loaded s [] ∧ s.cmd = Spec.skipNow 2 ∧ Spec.NextStop s.row 2 6 := ⟨{ create 0x0e (some []) true with cmd := 0x93 }, ⟨rfl, rfl, rfl, by decide⟩, rfl, by decide, by decide⟩

end Verif.Lpr
