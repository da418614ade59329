import Verif.Lpr.Paper
/-!
# The 1443 stays inside its tables, except ... (C46 over all histories)
-/
namespace Verif.Lpr
open Verif.Bus
open Verif.Card (Res look)

/-- What can happen to a printer. -/
inductive Op where
  | bus (t : Tags) (bo bi : Nat)
  | event
  | key (k : Key)

def step (s : S) : Op → Res S
  | .bus t bo bi => (dev s t bo bi).bind fun r => .ok r.1
  | .event => .ok (fire s)
  | .key k => key s k

def run : S → List Op → Res S
  | s, [] => .ok s
  | s, o :: os => (step s o).bind fun s => run s os

namespace Spec

/-- The printer after some history. -/
def Reachable (s : S) : Prop := ∃ addr file start os, run (create addr file start) os = .ok s

/-- The motion asked for by command `c` stays on the tape and the page. -/
def Moves (row c : Nat) : Prop :=
  ((c >>> 3) &&& 0x1f < 4 ∧ row + ((c >>> 3) &&& 0x1f) ≤ 66) ∨ (4 ≤ (c >>> 3) &&& 0x1f ∧ ∃ k, NextStop row ((c >>> 3) &&& 0x1f &&& 0xf) k)

end Spec

/-- The buffer will be printed. -/
abbrev Live (s : S) : Prop := s.dataEnd = false ∨ s.st = .cmd ∨ s.st = .initStat ∨ s.st = .opr ∨ s.st = .dataI ∨ s.st = .dataO

structure Inv (s : S) : Prop where
  len : s.buf.length = 144
  fcb : s.fcb = legacy
  lpp : s.lpp = 66
  row : s.row ≤ 66
  col : s.col ≤ 120
  full : s.col = 120 → s.dataEnd = true ∧ s.dataRdy = false
  taking : s.st = .dataI → s.col < 120
  status : s.status < 256
  sense : s.sense < 256
  fresh : Live s → ∀ j, j < s.col → ∃ v, s.buf[j]? = some v ∧ v < 256

theorem or8 {a b : Nat} (h : a < 256) (h' : b < 256) : a ||| b < 256 := Nat.or_lt_two_pow (n := 8) h h'

theorem Inv.holds {s : S} (h : Inv s) (hl : Live s) : ∃ bs, Spec.Holds s bs := by
  refine ⟨s.buf.take s.col, ?_, ?_, ?_, ?_⟩
  · rw [List.length_take]; have := h.len; have := h.col; omega
  · rw [List.length_take]; have := h.col; omega
  · intro j hj
    rw [List.length_take] at hj
    rw [List.getElem?_take, if_pos (by omega)]
  · intro v hv
    obtain ⟨j, hj, e⟩ := List.mem_iff_getElem.1 hv
    rw [List.length_take] at hj
    obtain ⟨w, e1, e2⟩ := h.fresh hl j (by omega)
    rw [List.getElem_take] at e
    rw [List.getElem?_eq_getElem (by omega)] at e1
    have := Option.some.inj e1
    omega

/-- What a print changes: file, buffer, row, sense and status. -/
structure Kept (s s' : S) : Prop where
  rest : ∃ f b r a c, s' = { s with file := some f, buf := b, row := r, sense := a, status := c }
  len : s.buf.length = 144 → s'.buf.length = 144
  row : s'.row ≤ 66
  status : s.status < 256 → s'.status < 256
  sense : s.sense < 256 → s'.sense < 256
  buf : s.cmd &&& 7 ≠ 1 → s'.buf = s.buf

theorem indicate_gen (p : Sp) : ∃ a c, indicate p = { p.s with sense := a, status := c } ∧ (p.s.sense < 256 → a < 256) ∧ (p.s.status < 256 → c < 256) := by
  unfold indicate
  by_cases h9 : p.ch9 = true ∧ p.s.cmd &&& 3 = 1
  · simp only [if_pos h9]
    by_cases h12 : p.ch12 = true
    · rw [if_pos ⟨h12, h9.2⟩]
      exact ⟨_, _, rfl, fun h => or8 h (by decide), fun h => or8 h (by decide)⟩
    · rw [if_neg (fun q => h12 q.1)]
      exact ⟨_, p.s.status, rfl, fun h => or8 h (by decide), id⟩
  · simp only [if_neg h9]
    split
    · exact ⟨p.s.sense, _, rfl, id, fun h => or8 h (by decide)⟩
    · exact ⟨p.s.sense, p.s.status, rfl, id, id⟩

theorem printLine_move {s s1 : S} {f : List Nat} (hp : printBuf s = .ok s1) (hl : Spec.Loaded s1 f) :
    (∃ s' d, printLine s = .ok (s', d) ∧ Kept s1 s' ∧ s'.buf = s1.buf) ∨ (printLine s = .oob ∧ ¬ Spec.Moves s1.row s.cmd) := by
  unfold printLine
  rw [hp, bk]
  by_cases h4 : (s.cmd >>> 3) &&& 0x1f < 4
  · simp only [if_pos h4]
    by_cases hr : s1.row + ((s.cmd >>> 3) &&& 0x1f) ≤ 66
    · rw [spaceLoop_ok _ s1 f false false 0 hl.file hl.fcb hl.lpp hr, bk, pageEnd_no _ (by exact hr) hl.lpp, bk]
      obtain ⟨a, c, e, ha, hc⟩ := indicate_gen ⟨{ s1 with file := some (f ++ Spec.newlines ((s.cmd >>> 3) &&& 0x1f)), row := s1.row + ((s.cmd >>> 3) &&& 0x1f) }, false || passed 9 s1.row ((s.cmd >>> 3) &&& 0x1f), false || passed 12 s1.row ((s.cmd >>> 3) &&& 0x1f), 0 + ((s.cmd >>> 3) &&& 0x1f)⟩
      refine Or.inl ⟨_, _, rfl, ?_⟩
      rw [e]
      exact ⟨⟨⟨_, _, _, _, _, rfl⟩, id, hr, hc, ha, fun _ => rfl⟩, rfl⟩
    · rw [spaceLoop_oob _ s1 f false false 0 hl.file hl.fcb hl.lpp hl.row (by omega)]
      refine Or.inr ⟨rfl, ?_⟩
      rintro (⟨-, q⟩ | ⟨q, -⟩) <;> omega
  · simp only [if_neg h4]
    by_cases hk : ∃ k, Spec.NextStop s1.row ((s.cmd >>> 3) &&& 0x1f &&& 0xf) k
    · obtain ⟨k, hk⟩ := hk
      rw [skip_ok s1 f _ k hl.file hl.fcb hl.lpp hl.row _ rfl hk]
      have key : ∀ p ∈ Spec.stops, p.2 < 66 := by decide
      have := key _ hk.1
      simp only at this
      exact Or.inl ⟨_, _, rfl, ⟨⟨_, _, _, s1.sense, s1.status, rfl⟩, id, by show k - 1 ≤ 66; omega, id, id, fun _ => rfl⟩, rfl⟩
    · rw [skip_oob s1 _ hl.fcb hl.lpp hl.row _ rfl (fun k q => hk ⟨k, q⟩)]
      refine Or.inr ⟨rfl, ?_⟩
      rintro (⟨q, -⟩ | ⟨-, q⟩)
      · omega
      · exact hk q

theorem printLine_ok {s : S} {f : List Nat} (hl : Spec.Loaded s f) (hb : s.cmd &&& 7 = 1 → ∃ bs, Spec.Holds s bs) :
    (∃ s' d, printLine s = .ok (s', d) ∧ Kept s s') ∨ (printLine s = .oob ∧ ¬ Spec.Moves s.row s.cmd) := by
  by_cases hc : s.cmd &&& 7 = 1
  · obtain ⟨bs, hb⟩ := hb hc
    rcases printLine_move (printBuf_ok hl.file hb hc) ⟨rfl, hl.fcb, hl.lpp, hl.row⟩ with ⟨s', d, e, ⟨⟨f', b, r, a, c, e'⟩, -, k2, k3, k4, -⟩, kb⟩ | q
    · exact Or.inl ⟨s', d, e, ⟨f', b, r, a, c, e'⟩, fun _ => by rw [kb]; show (List.replicate 144 0x40404040).length = 144; rw [List.length_replicate], k2, k3, k4, fun q => absurd hc q⟩
    · exact Or.inr q
  · rcases printLine_move (printBuf_skip hc) hl with ⟨s', d, e, k, -⟩ | q
    · exact Or.inl ⟨s', d, e, k⟩
    · exact Or.inr q

theorem printEvent_ok {s : S} {f : List Nat} (hl : Spec.Loaded s f) (hb : s.cmd &&& 7 = 1 → ∃ bs, Spec.Holds s bs) :
    (∃ f b r a c fd ev, printEvent s = .ok { s with file := some f, buf := b, row := r, sense := a, status := c, feedDone := fd, evs := ev } ∧
      (s.buf.length = 144 → b.length = 144) ∧ r ≤ 66 ∧ (s.status < 256 → c < 256) ∧ (s.sense < 256 → a < 256)) ∨ (printEvent s = .oob ∧ ¬ Spec.Moves s.row s.cmd) := by
  rcases printLine_ok hl hb with ⟨s', d, e, ⟨f', b, r, a, c, rfl⟩, k1, k2, k3, k4, -⟩ | ⟨e, q⟩
  · refine Or.inl ?_
    unfold printEvent
    rw [e, bk]
    by_cases hd : d = 0
    · exact ⟨f', b, r, a, c, true, s.evs, by simp [hd], k1, k2, k3, k4⟩
    · exact ⟨f', b, r, a, c, s.feedDone, s.evs + 1, by simp [hd], k1, k2, k3, k4⟩
  · refine Or.inr ⟨?_, q⟩
    unfold printEvent
    rw [e]
    rfl

/-- The parts of the invariant that a step outside of printing and taking a byte keeps. -/
theorem Inv.next {s s' : S} (h : Inv s) (e1 : s'.buf = s.buf) (e2 : s'.fcb = s.fcb) (e3 : s'.lpp = s.lpp) (e4 : s'.row = s.row) (e5 : s'.col = s.col)
    (hf : s.col = 120 → s'.dataEnd = true ∧ s'.dataRdy = false) (ht : s'.st = .dataI → s.col < 120) (h1 : s'.status < 256) (h2 : s'.sense < 256) (hl : Live s' → Live s) : Inv s' :=
  ⟨by rw [e1]; exact h.len, by rw [e2]; exact h.fcb, by rw [e3]; exact h.lpp, by rw [e4]; exact h.row, by rw [e5]; exact h.col, by rw [e5]; exact hf, by rw [e5]; exact ht, h1, h2, by
    rw [e1, e5]; exact fun q => h.fresh (hl q)⟩

/-- Where an access outside of a table, or to a file that is not there, can happen. -/
def Fault (s : S) : Op → Prop
  | .bus t bo _ =>
    (s.st = .dataO ∧ 256 ≤ s.data) ∨
    (s.st = .opr ∧ s.cmd &&& 7 = 1 ∧ (s.file = none ∨ ¬ Spec.Moves s.row s.cmd)) ∨
    (s.st = .sel ∧ t.cmd = true ∧ bo % 256 &&& 7 = 3 ∧ ¬ Spec.Moves s.row (bo % 256))
  | .event => False
  | .key .space => s.ready = false ∧ (s.file = none ∨ ¬ Spec.Moves s.row 0x0b)
  | .key .restore => s.ready = false ∧ (s.file = none ∨ ¬ Spec.Moves s.row 0x8b)
  | .key _ => False

/-- A step is carried out and keeps the invariant, or leaves the tables with `p`. -/
abbrev Good (x : Res Io) (p : Prop) : Prop := (∃ r, x = .ok r ∧ Inv r.1) ∨ (x = .oob ∧ p)

section
variable {s s' : S} {t t' : Tags} {bo bi bi' : Nat}

theorem reset_inv (h : Inv s) : Inv (reset s t bi).1 := by
  refine h.next rfl rfl rfl rfl rfl h.full (by simp [reset]) (by show 0 < 256; decide) (by show 0 < 256; decide) ?_
  simp only [reset, Live]
  intro q
  exact Or.inl (by simpa using q)

theorem select_inv (h : Inv s) (nxt : St) (hn : nxt = .sel ∨ nxt = .stackSel) : Inv (select s t bo nxt).1 := by
  refine h.next rfl rfl rfl rfl rfl h.full (by rcases hn with rfl | rfl <;> simp [select]) h.status ?_ ?_
  · simp only [select]; split
    · exact or8 h.sense (by decide)
    · exact h.sense
  · simp only [select, Live]
    intro q
    refine Or.inl ?_
    rcases hn with rfl | rfl <;> simpa using q

theorem idle_inv (h : Inv s) : Inv (idle s t bo bi).1 := by
  unfold idle
  split
  · exact select_inv (t := t) h _ (Or.inl rfl)
  · exact h

/-- Live is decided by the end of the data when the next state is not one of transfer. -/
theorem live_of {s s' : S} (hd : s'.dataEnd = s.dataEnd) (h : s'.st ≠ .cmd ∧ s'.st ≠ .initStat ∧ s'.st ≠ .opr ∧ s'.st ≠ .dataI ∧ s'.st ≠ .dataO) : Live s' → Live s := by
  intro q
  refine Or.inl ?_
  rcases q with q | q | q | q | q | q
  · rw [← hd]; exact q
  · exact absurd q h.1
  · exact absurd q h.2.1
  · exact absurd q h.2.2.1
  · exact absurd q h.2.2.2.1
  · exact absurd q h.2.2.2.2

theorem refuse_facts (s : S) : (refuse s).status < 256 ∧ (refuse s).sense < 256 := ⟨by show sChnEnd ||| sDevEnd ||| sUnitChk < 256; decide, by show eCmdRej < 256; decide⟩

/-- A printer that has just got a command. -/
structure Begun (s s' : S) : Prop where
  len : s'.buf.length = 144
  fcb : s'.fcb = legacy
  lpp : s'.lpp = 66
  row : s'.row ≤ 66
  col : s'.col = 0
  st : s'.st = .cmd
  status : s'.status < 256
  sense : s'.sense < 256

theorem Begun.inv {s s' : S} (h : Begun s s') : Inv s' :=
  ⟨h.len, h.fcb, h.lpp, h.row, by rw [h.col]; decide, (fun q => by rw [h.col] at q; omega), (fun q => by rw [h.st] at q; cases q), h.status, h.sense, fun _ j hj => by rw [h.col] at hj; omega⟩

theorem decode_ok {f : List Nat} (h : Begun s s) (hf : s.file = some f) : (∃ s', decode s = .ok s' ∧ Begun s s') ∨ (decode s = .oob ∧ s.cmd &&& 7 = 3 ∧ ¬ Spec.Moves s.row s.cmd) := by
  have hr := refuse_facts s
  unfold decode
  split
  · exact Or.inl ⟨_, rfl, h⟩
  · refine Or.inl ⟨_, rfl, ?_⟩
    split
    · exact ⟨h.len, h.fcb, h.lpp, h.row, h.col, h.st, hr.1, hr.2⟩
    · exact ⟨h.len, h.fcb, h.lpp, h.row, h.col, h.st, h.status, by show 0 < 256; decide⟩
  · exact Or.inl ⟨_, rfl, h.len, h.fcb, h.lpp, h.row, h.col, h.st, hr.1, hr.2⟩
  · rename_i hc
    split
    · exact Or.inl ⟨_, rfl, h.len, h.fcb, h.lpp, h.row, h.col, h.st, hr.1, hr.2⟩
    · rcases printEvent_ok (s := { s with sense := 0 }) (f := f) ⟨hf, h.fcb, h.lpp, h.row⟩ (fun q => by rw [show ({ s with sense := 0 } : S).cmd = s.cmd from rfl, hc] at q; cases q) with ⟨f', b, r, a, c, fd, ev, e, k1, k2, k3, k4⟩ | ⟨e, q⟩
      · rw [e, bk]
        exact Or.inl ⟨_, rfl, k1 h.len, h.fcb, h.lpp, k2, h.col, h.st, by show sChnEnd < 256; decide, k4 (by show 0 < 256; decide)⟩
      · rw [e]
        exact Or.inr ⟨rfl, hc, q⟩
  · refine Or.inl ⟨_, rfl, ?_⟩
    split
    · exact ⟨h.len, h.fcb, h.lpp, h.row, h.col, h.st, hr.1, hr.2⟩
    · exact ⟨h.len, h.fcb, h.lpp, h.row, h.col, h.st, h.status, h.sense⟩
  · exact Or.inl ⟨_, rfl, h.len, h.fcb, h.lpp, h.row, h.col, h.st, hr.1, hr.2⟩

theorem command_ok (h : Inv s) : (∃ s', command s bo = .ok s' ∧ Inv s') ∨ (command s bo = .oob ∧ bo % 256 &&& 7 = 3 ∧ ¬ Spec.Moves s.row (bo % 256)) := by
  unfold command
  simp only
  split
  · exact Or.inl ⟨_, rfl, (Begun.inv (s := s) ⟨h.len, h.fcb, h.lpp, h.row, rfl, rfl, by show sChnEnd ||| sDevEnd ||| sUnitChk < 256; decide, by show eInterv < 256; decide⟩)⟩
  · rename_i hf
    cases hq : s.file with
    | none => exact absurd (Or.inr hq) hf
    | some f =>
      have k := decode_ok (s := { s with cmd := bo % 256, dataRdy := false, dataEnd := false, col := 0, cnt := 0, feedDone := false, status := 0, st := .cmd }) (f := f) ⟨h.len, h.fcb, h.lpp, h.row, rfl, rfl, by show 0 < 256; decide, h.sense⟩ hq
      rw [hq] at k
      rcases k with ⟨s', e, k⟩ | ⟨e, k⟩
      · rw [e, bk]
        refine Or.inl ⟨_, rfl, Begun.inv (s := s) ?_⟩
        split
        · exact ⟨k.len, k.fcb, k.lpp, k.row, k.col, k.st, by show sChnEnd ||| sDevEnd ||| sUnitChk < 256; decide, or8 k.sense (by decide)⟩
        · exact ⟨k.len, k.fcb, k.lpp, k.row, k.col, k.st, k.status, k.sense⟩
      · rw [e]
        exact Or.inr ⟨rfl, k⟩

theorem sel_ok (h : Inv s) (hs : s.st = .sel) : Good (sel s t bo bi) (t.cmd = true ∧ bo % 256 &&& 7 = 3 ∧ ¬ Spec.Moves s.row (bo % 256)) := by
  have hc : (if (s.addressed || s.selected) = true then { t with sel := false, oprIn := true } else t).cmd = t.cmd := by split <;> rfl
  have nx : ∀ x, x = St.sel ∨ x = St.idle → ∀ a b, Inv { s with st := x, selected := a, addressed := b } := by
    intro x hx a b
    refine h.next rfl rfl rfl rfl rfl h.full (by rcases hx with rfl | rfl <;> simp) h.status h.sense (live_of rfl (by rcases hx with rfl | rfl <;> simp))
  unfold sel
  simp only
  generalize (if (s.addressed || s.selected) = true then ({ t with sel := false, oprIn := true } : Tags) else t) = t1 at hc ⊢
  split
  · refine Or.inl ⟨_, rfl, ?_⟩
    have := nx .sel (Or.inl rfl) true false
    rw [← hs] at this
    exact this
  · split
    · exact Or.inl ⟨_, rfl, h⟩
    · split
      · exact Or.inl ⟨_, rfl, nx .idle (Or.inr rfl) false s.addressed⟩
      · split
        · rename_i hq
          rcases command_ok (bo := bo) h with ⟨s', e, k⟩ | ⟨e, k⟩
          · rw [e, bk]
            exact Or.inl ⟨_, rfl, k⟩
          · rw [e]
            exact Or.inr ⟨rfl, hc.symm.trans hq.2, k⟩
        · exact Or.inl ⟨_, rfl, h⟩

theorem cmdSt_ok (h : Inv s) (hs : s.st = .cmd) : ∃ r, cmdSt s t bi = .ok r ∧ Inv r.1 := by
  have hlive : Live s := Or.inr (Or.inl hs)
  unfold cmdSt
  split
  · simp only
    split
    · exact ⟨_, rfl, h.next rfl rfl rfl rfl rfl h.full (by simp) h.status h.sense (fun _ => hlive)⟩
    · split
      · exact ⟨_, rfl, h⟩
      · rw [withPar_ok _ h.status, bk]
        split
        · exact ⟨_, rfl, h.next rfl rfl rfl rfl rfl h.full (by simp) h.status h.sense (fun _ => hlive)⟩
        · exact ⟨_, rfl, h⟩
  · exact ⟨_, rfl, h⟩

theorem and8 {a : Nat} (h : a < 256) (b : Nat) : a &&& b < 256 := Nat.lt_of_le_of_lt Nat.and_le_left h

theorem initStat_inv (h : Inv s) (hs : s.st = .initStat) : Inv (initStat s t bi).1 := by
  have hlive : Live s := Or.inr (Or.inr (Or.inl hs))
  unfold initStat
  simp only
  repeat' split
  all_goals first | exact h | skip
  all_goals refine h.next rfl rfl rfl rfl rfl h.full (by simp) ?_ h.sense (fun _ => hlive)
  all_goals first | exact h.status | exact and8 h.status _

/-- Where a print goes wrong. -/
abbrev PrintFault (s : S) : Prop := s.cmd &&& 7 = 1 ∧ (s.file = none ∨ ¬ Spec.Moves s.row s.cmd)

theorem printEvent_none (hf : s.file = none) (hc : s.cmd &&& 7 = 1) (hb : ∃ bs, Spec.Holds s bs) : printEvent s = .oob := by
  obtain ⟨bs, hb⟩ := hb
  have e : chars s.buf s.col 0 = .ok (bs.map Spec.glyph) := by
    rw [hb.col]; exact chars_ok s.buf bs 0 (by have := hb.len; omega) (by simpa using hb.buf) hb.byte
  unfold printEvent printLine printBuf
  rw [if_pos hc, e, bk]
  unfold put
  rw [hf]
  rfl

theorem chn_ne (c : Nat) : (c ||| sChnEnd) &&& sChnEnd ≠ 0 := by
  intro q
  have := congrArg (fun n => n.testBit 3) q
  simp only [sChnEnd, Nat.testBit_and, Nat.testBit_or, Nat.zero_testBit] at this
  rw [show Nat.testBit 8 3 = true from rfl] at this
  simp at this

theorem oprEnd_ok (h : Inv s) (hs : s.st = .opr) (hd : s.dataEnd = true) (hr : s.dataRdy = false) :
    (∃ s', oprEnd s = .ok s' ∧ Inv s') ∨ (oprEnd s = .oob ∧ PrintFault s) := by
  have hlive : Live s := Or.inr (Or.inr (Or.inr (Or.inl hs)))
  unfold oprEnd
  simp only
  by_cases h1 : s.cmd &&& 7 = 1
  · have h4 : s.cmd ≠ 4 := by intro q; rw [q] at h1; cases h1
    simp only [if_neg h4, if_pos h1]
    cases hq : s.file with
    | none =>
      rw [printEvent_none hq h1 (h.holds hlive)]
      exact Or.inr ⟨rfl, h1, Or.inl hq⟩
    | some f =>
      rcases printEvent_ok ⟨hq, h.fcb, h.lpp, h.row⟩ (fun _ => h.holds hlive) with ⟨f', b, r, a, c, fd, ev, e, k1, k2, k3, k4⟩ | ⟨e, q⟩
      · rw [e, bk, bk]
        have hc : c ||| sChnEnd < 256 := or8 (k3 h.status) (by decide)
        have hne := chn_ne c
        refine Or.inl ⟨_, rfl, ?_⟩
        simp only [if_pos hne]
        refine ⟨k1 h.len, h.fcb, h.lpp, k2, h.col, fun _ => ⟨hd, hr⟩, ?_, hc, k4 h.sense, ?_⟩
        · intro q
          simp only at q
          split at q <;> cases q
        · intro q
          exfalso
          rcases q with q | q | q | q | q | q
          · simp only at q; rw [hd] at q; cases q
          all_goals
            simp only at q
            split at q <;> cases q
      · rw [e]
        exact Or.inr ⟨rfl, h1, Or.inr q⟩
  · refine Or.inl ?_
    by_cases h4 : s.cmd = 4
    · simp only [if_pos h4, if_neg h1, bk]
      exact ⟨_, rfl, h.next rfl rfl rfl rfl rfl h.full (by simp [sChnEnd, sDevEnd]) (by show sChnEnd ||| sDevEnd < 256; decide) h.sense (fun _ => hlive)⟩
    · simp only [if_neg h4, if_neg h1, bk]
      refine ⟨_, rfl, h.next rfl rfl rfl rfl rfl h.full ?_ h.status h.sense (fun _ => hlive)⟩
      intro q
      simp only at q
      split at q
      · cases q
      · split at q
        · cases q
        · rw [hs] at q; cases q

theorem oprData_ok (h : Inv s) (hs : s.st = .opr) : Good (oprData s t bi) (PrintFault s) := by
  have hlive : Live s := Or.inr (Or.inr (Or.inr (Or.inl hs)))
  unfold oprData
  by_cases hr : s.dataRdy = true
  · rw [if_pos hr]
    refine Or.inl ⟨_, rfl, h.next rfl rfl rfl rfl rfl h.full ?_ h.status h.sense (fun _ => hlive)⟩
    intro _
    have := h.col
    by_cases hc : s.col = 120
    · have := (h.full hc).2; rw [this] at hr; cases hr
    · omega
  · rw [if_neg hr]
    by_cases hd : s.dataEnd = true
    · rw [if_pos hd]
      rcases oprEnd_ok h hs hd (by simpa using hr) with ⟨s', e, k⟩ | ⟨e, k⟩
      · rw [e, bk]
        exact Or.inl ⟨_, rfl, k⟩
      · rw [e]
        exact Or.inr ⟨rfl, k⟩
    · rw [if_neg hd]
      exact Or.inl ⟨_, rfl, h⟩

theorem opr_ok (h : Inv s) (hs : s.st = .opr) : Good (opr s t bo bi) (PrintFault s) := by
  have hlive : Live s := Or.inr (Or.inr (Or.inr (Or.inl hs)))
  unfold opr
  simp only
  generalize (if s.selected = true then ({ t with sel := false } : Tags) else t) = t1
  split
  · exact Or.inl ⟨_, rfl, h.next rfl rfl rfl rfl rfl h.full (by simp [hs]) h.status h.sense (fun _ => hlive)⟩
  · split
    · exact Or.inl ⟨_, rfl, h.next rfl rfl rfl rfl rfl (fun _ => ⟨rfl, rfl⟩) (by simp [hs]) h.status h.sense (fun _ => hlive)⟩
    · split
      · exact Or.inl ⟨_, rfl, h⟩
      · split
        · exact Or.inl ⟨_, rfl, h.next rfl rfl rfl rfl rfl h.full (by simp [hs]) h.status h.sense (fun _ => hlive)⟩
        · exact oprData_ok h hs

theorem req_inv (h : Inv s) (hs : s.st = .req) : Inv (req s t bi).1 := by
  have n1 : ∀ a b, Inv { s with addressed := a, request := b } := fun a b =>
    h.next rfl rfl rfl rfl rfl h.full (by simp [hs]) h.status h.sense (live_of rfl (by simp [hs]))
  have n2 : Inv { s with selected := true, addressed := false, st := reqNext s } := by
    refine h.next rfl rfl rfl rfl rfl h.full ?_ h.status h.sense ?_
    · simp only [reqNext]
      intro q
      have := h.col
      by_cases hc : s.col = 120
      · rw [(h.full hc).1] at q
        simp only [if_true] at q
        split at q <;> cases q
      · omega
    · simp only [reqNext, Live]
      intro q
      refine Or.inl ?_
      cases hd : s.dataEnd with
      | false => rfl
      | true =>
        rw [hd] at q
        simp only [if_true] at q
        split at q <;> simp at q
  unfold req
  split
  · exact n1 true s.request
  · split
    · exact n1 true false
    · split
      · exact n1 s.addressed false
      · split
        · exact n2
        · split
          · exact n1 s.addressed false
          · split
            · exact n1 s.addressed false
            · exact n1 s.addressed true

theorem take_ok (h : Inv s) (hs : s.st = .dataI) : ∃ r, take s t bo bi = .ok r ∧ Inv r.1 := by
  have hlive : Live s := Or.inr (Or.inr (Or.inr (Or.inr (Or.inl hs))))
  have hc := h.taking hs
  unfold take
  simp only
  split
  · exact ⟨_, rfl, h.next rfl rfl rfl rfl rfl (fun q => by omega) (by simp) (by show sChnEnd ||| sDevEnd ||| sUnitChk < 256; decide) (or8 h.sense (by decide)) (fun _ => hlive)⟩
  · rw [if_pos (by rw [h.len]; omega)]
    refine ⟨_, rfl, ?_⟩
    have fr : ∀ j, j < s.col + 1 → ∃ v, (s.buf.set s.col (bo % 256))[j]? = some v ∧ v < 256 := by
      intro j hj
      by_cases e : j = s.col
      · rw [e, List.getElem?_set_self (by rw [h.len]; omega)]
        exact ⟨_, rfl, Nat.mod_lt _ (by decide)⟩
      · rw [List.getElem?_set_ne (fun q => e q.symm)]
        exact h.fresh hlive j (by omega)
    by_cases h3 : s.cnt + 1 = 3
    · simp only [if_pos h3]
      by_cases h120 : s.col + 1 = 120
      · simp only [if_pos h120]
        exact ⟨by rw [List.length_set]; exact h.len, h.fcb, h.lpp, h.row, by show s.col + 1 ≤ 120; omega, fun _ => ⟨rfl, rfl⟩, (fun q => by cases q), h.status, h.sense, fun _ => fr⟩
      · simp only [if_neg h120]
        exact ⟨by rw [List.length_set]; exact h.len, h.fcb, h.lpp, h.row, by show s.col + 1 ≤ 120; omega, fun q => absurd q h120, (fun q => by cases q), h.status, h.sense, fun _ => fr⟩
    · simp only [if_neg h3]
      by_cases h120 : s.col + 1 = 120
      · simp only [if_pos h120]
        exact ⟨by rw [List.length_set]; exact h.len, h.fcb, h.lpp, h.row, by show s.col + 1 ≤ 120; omega, fun _ => ⟨rfl, rfl⟩, (fun q => by cases q), h.status, h.sense, fun _ => fr⟩
      · simp only [if_neg h120]
        exact ⟨by rw [List.length_set]; exact h.len, h.fcb, h.lpp, h.row, by show s.col + 1 ≤ 120; omega, fun q => absurd q h120, (fun q => by cases q), h.status, h.sense, fun _ => fr⟩

theorem dataI_ok (h : Inv s) (hs : s.st = .dataI) : ∃ r, dataI s t bo bi = .ok r ∧ Inv r.1 := by
  have hlive : Live s := Or.inr (Or.inr (Or.inr (Or.inr (Or.inl hs))))
  have hc := h.taking hs
  unfold dataI
  split
  · exact ⟨_, rfl, h.next rfl rfl rfl rfl rfl h.full (by simp) h.status h.sense (fun _ => hlive)⟩
  · simp only
    split
    · exact take_ok h hs
    · split
      · exact ⟨_, rfl, h.next rfl rfl rfl rfl rfl (fun q => by omega) (by simp) h.status h.sense (fun _ => hlive)⟩
      · exact ⟨_, rfl, h⟩

theorem dataO_ok (h : Inv s) (hs : s.st = .dataO) : Good (dataO s t bi) (256 ≤ s.data) := by
  have hlive : Live s := Or.inr (Or.inr (Or.inr (Or.inr (Or.inr hs))))
  unfold dataO
  split
  · exact Or.inl ⟨_, rfl, h.next rfl rfl rfl rfl rfl h.full (by simp) h.status h.sense (fun _ => hlive)⟩
  · by_cases hd : s.data < 256
    · rw [withPar_ok _ hd, bk]
      refine Or.inl ⟨_, rfl, ?_⟩
      simp only
      repeat' split
      all_goals first | exact h | skip
      all_goals exact h.next rfl rfl rfl rfl rfl (fun q => ⟨by first | rfl | exact (h.full q).1, rfl⟩) (by simp) h.status h.sense (fun _ => hlive)
    · rw [withPar_oob _ (by omega)]
      exact Or.inr ⟨rfl, by omega⟩

theorem dataEnd_ok (h : Inv s) (hs : s.st = .dataEnd) : ∃ r, dataEnd s t bi = .ok r ∧ Inv r.1 := by
  unfold dataEnd
  split
  · exact ⟨_, rfl, h.next rfl rfl rfl rfl rfl h.full (by simp) h.status h.sense (live_of rfl (by simp))⟩
  · rw [withPar_ok _ h.status, bk]
    simp only
    repeat' split
    all_goals first | exact ⟨_, rfl, h⟩ | exact ⟨_, rfl, h.next rfl rfl rfl rfl rfl h.full (by simp) (and8 h.status _) h.sense (live_of rfl (by simp))⟩

theorem endSt_ok (h : Inv s) (hs : s.st = .fin) : ∃ r, endSt s t bi = .ok r ∧ Inv r.1 := by
  have hb : ∀ b : Bool, (if b = true then { s with status := s.status ||| sCtlEnd } else s).status < 256 := by
    intro b
    split
    · exact or8 h.status (by decide)
    · exact h.status
  have n1 : ∀ (x : St) (a b c : Bool) (v w : Nat), (x = .fin ∨ x = .idle ∨ x = .stack ∨ x = .req) → v < 256 → Inv { s with st := x, selected := a, stacked := b, busyFlag := c, status := v, cmd := w } := by
    intro x a b c v w hx hv
    refine h.next rfl rfl rfl rfl rfl h.full ?_ hv h.sense (live_of rfl ?_) <;> rcases hx with rfl | rfl | rfl | rfl <;> simp
  unfold endSt
  split
  · exact ⟨_, rfl, n1 .req _ _ _ _ _ (by simp) h.status⟩
  · simp only
    split
    · exact ⟨_, rfl, h⟩
    · rw [withPar_ok _ (hb s.busyFlag), bk]
      have hv : ∀ b : Bool, (if b = true then { s with status := s.status ||| sCtlEnd } else s) = { s with status := (if b = true then s.status ||| sCtlEnd else s.status) } := by
        intro b; cases b <;> rfl
      rw [hv]
      have hv2 : (if s.busyFlag = true then s.status ||| sCtlEnd else s.status) < 256 := by
        split
        · exact or8 h.status (by decide)
        · exact h.status
      split
      · refine ⟨_, rfl, ?_⟩
        have := n1 .fin s.selected s.stacked s.busyFlag (if s.sense ≠ 0 then (if s.busyFlag = true then s.status ||| sCtlEnd else s.status) ||| sUnitChk else (if s.busyFlag = true then s.status ||| sCtlEnd else s.status)) 0 (Or.inl rfl)
          (by split
              · exact or8 hv2 (by decide)
              · exact hv2)
        rw [← hs] at this
        exact this
      · split
        · exact ⟨_, rfl, n1 .idle _ _ _ _ _ (by simp) hv2⟩
        · split
          · exact ⟨_, rfl, n1 .stack _ _ _ _ _ (by simp) hv2⟩
          · refine ⟨_, rfl, ?_⟩
            have := n1 .fin s.selected s.stacked s.busyFlag _ s.cmd (Or.inl rfl) hv2
            rw [← hs] at this
            exact this

theorem stack_inv (h : Inv s) : Inv (stack s t bo bi).1 := by
  unfold stack
  have n1 : ∀ s : S, Inv s → Inv { s with st := .req } := fun s h => h.next rfl rfl rfl rfl rfl h.full (by simp) h.status h.sense (live_of rfl (by simp))
  have n2 : Inv (if isSelect t = true ∧ bo % 256 = s.addr then select s t bo .stackSel else (s, t)).1 := by
    split
    · exact select_inv (t := t) h _ (Or.inr rfl)
    · exact h
  simp only
  by_cases q : (if isSelect t = true ∧ bo % 256 = s.addr then select s t bo .stackSel else (s, t)).1.stacked = true ∧
      (if isSelect t = true ∧ bo % 256 = s.addr then select s t bo .stackSel else (s, t)).1.feedDone = true ∧ (if isSelect t = true ∧ bo % 256 = s.addr then select s t bo .stackSel else (s, t)).2 = { opr := true }
  · rw [if_pos q]; exact n1 _ n2
  · rw [if_neg q]; exact n2

theorem stackSel_inv (h : Inv s) (hs : s.st = .stackSel) : Inv (stackSel s t bo bi).1 := by
  unfold stackSel
  simp only
  generalize (if (s.addressed || s.selected) = true then ({ t with sel := false, oprIn := true } : Tags) else t) = t1
  split
  · exact h.next rfl rfl rfl rfl rfl h.full (by simp [hs]) h.status h.sense (live_of rfl (by simp [hs]))
  · split
    · split
      · refine h.next rfl rfl rfl rfl rfl h.full (by simp) ?_ ?_ (live_of rfl (by simp))
        · simp only; split
          · decide
          · exact h.status
        · simp only; split
          · exact or8 h.sense (by decide)
          · exact h.sense
      · exact h
    · exact h

theorem stackCmd_ok (h : Inv s) : ∃ r, stackCmd s t = .ok r ∧ Inv r.1 := by
  unfold stackCmd
  rw [withPar_ok _ h.status, bk]
  exact ⟨_, rfl, h.next rfl rfl rfl rfl rfl h.full (by simp) h.status h.sense (live_of rfl (by simp))⟩

theorem stackSta_ok (h : Inv s) : ∃ r, stackSta s t = .ok r ∧ Inv r.1 := by
  unfold stackSta
  rw [withPar_ok _ h.status, bk]
  simp only
  repeat' split
  all_goals first | exact ⟨_, rfl, h⟩ | exact ⟨_, rfl, h.next rfl rfl rfl rfl rfl h.full (by simp) h.status h.sense (live_of rfl (by simp))⟩ | exact ⟨_, rfl, h.next rfl rfl rfl rfl rfl h.full (by simp) (and8 h.status _) h.sense (live_of rfl (by simp))⟩

theorem stackHld_inv (h : Inv s) : Inv (stackHld s t bi).1 := by
  unfold stackHld
  simp only
  repeat' split
  all_goals first | exact h | exact h.next rfl rfl rfl rfl rfl h.full (by simp) h.status h.sense (live_of rfl (by simp))

theorem wait_inv (h : Inv s) (hs : s.st = .wait) : Inv (wait s t bo bi).1 := by
  have n1 : ∀ a b, Inv { s with addressed := a, busyFlag := b } := fun a b => h.next rfl rfl rfl rfl rfl h.full (by simp [hs]) h.status h.sense (live_of rfl (by simp [hs]))
  have n2 : ∀ s : S, Inv s → Inv { s with status := s.status ||| sDevEnd, st := .fin } := fun s h => h.next rfl rfl rfl rfl rfl h.full (by simp) (or8 h.status (by decide)) h.sense (live_of rfl (by simp))
  have n3 : Inv (waitBusy s t bo bi).1 := by
    unfold waitBusy
    simp only
    repeat' split
    all_goals first | exact h | exact n1 _ _ | exact n1 s.addressed s.busyFlag | exact n1 true true | exact n1 false true | exact n1 false s.busyFlag
  unfold wait
  simp only
  split
  · exact n2 _ n3
  · exact n3

theorem dev_ok (h : Inv s) : Good (dev s t bo bi) (Fault s (.bus t bo bi)) := by
  unfold dev
  split
  · exact Or.inl ⟨_, rfl, reset_inv h⟩
  · cases hs : s.st <;> simp only
    · exact Or.inl ⟨_, rfl, idle_inv h⟩
    · exact (sel_ok h hs).imp id (fun q => ⟨q.1, Or.inr (Or.inr ⟨hs, q.2⟩)⟩)
    · exact Or.inl (cmdSt_ok h hs)
    · exact Or.inl ⟨_, rfl, initStat_inv h hs⟩
    · exact (opr_ok h hs).imp id (fun q => ⟨q.1, Or.inr (Or.inl ⟨hs, q.2⟩)⟩)
    · exact Or.inl ⟨_, rfl, req_inv h hs⟩
    · exact (dataO_ok h hs).imp id (fun q => ⟨q.1, Or.inl ⟨hs, q.2⟩⟩)
    · exact Or.inl (dataI_ok h hs)
    · exact Or.inl (dataEnd_ok h hs)
    · exact Or.inl (endSt_ok h hs)
    · exact Or.inl ⟨_, rfl, stack_inv h⟩
    · exact Or.inl ⟨_, rfl, stackSel_inv h hs⟩
    · exact Or.inl (stackCmd_ok h)
    · exact Or.inl (stackSta_ok h)
    · exact Or.inl ⟨_, rfl, stackHld_inv h⟩
    · exact Or.inl ⟨_, rfl, wait_inv h hs⟩

/-- Motion without paper. -/
theorem printLine_none (hf : s.file = none) (hc : s.cmd &&& 7 ≠ 1) (hi : Inv s) (hl : (s.cmd >>> 3) &&& 0x1f = 1 ∨ (s.cmd >>> 3) &&& 0x1f = 17) : printLine s = .oob := by
  unfold printLine
  rw [printBuf_skip hc, bk]
  rcases hl with e | e
  · simp only [e]
    rw [if_pos (by decide)]
    simp only [spaceLoop, put, hf]
    rfl
  · simp only [e]
    rw [if_neg (by decide), skip_oob s 1 hi.fcb hi.lpp hi.row 17 (by decide)]
    intro k hk
    have key : ∀ p ∈ Spec.stops, p.1 = 1 → p.2 = 0 := by decide
    have := key _ hk.1 rfl
    have := hk.2
    omega

theorem panelPrint_ok (h : Inv s) (c : Nat) (hc : c &&& 7 ≠ 1) (hl : (c >>> 3) &&& 0x1f = 1 ∨ (c >>> 3) &&& 0x1f = 17) :
    (∃ s', panelPrint s c = .ok s' ∧ Inv s') ∨ (panelPrint s c = .oob ∧ s.ready = false ∧ (s.file = none ∨ ¬ Spec.Moves s.row c)) := by
  unfold panelPrint
  split
  · rename_i hr
    have hi : Inv { s with cmd := c } := ⟨h.len, h.fcb, h.lpp, h.row, h.col, h.full, h.taking, h.status, h.sense, h.fresh⟩
    cases hq : s.file with
    | none =>
      have e := printLine_none (s := { s with cmd := c }) hq hc hi hl
      rw [hq] at e
      rw [e]
      exact Or.inr ⟨rfl, hr, Or.inl rfl⟩
    | some f =>
      have k := printLine_ok (s := { s with cmd := c }) (f := f) ⟨hq, h.fcb, h.lpp, h.row⟩ (fun q => absurd q hc)
      rw [hq] at k
      rcases k with ⟨s', d, e, ⟨f', b, r, a, v, rfl⟩, k1, k2, k3, k4, k5⟩ | ⟨e, q⟩
      · rw [e, bk]
        have hb : b = s.buf := k5 hc
        subst hb
        exact Or.inl ⟨_, rfl, h.len, h.fcb, h.lpp, k2, h.col, h.full, h.taking, k3 h.status, k4 h.sense, h.fresh⟩
      · rw [e]
        exact Or.inr ⟨rfl, hr, Or.inr q⟩
  · exact Or.inl ⟨_, rfl, h⟩

theorem key_ok (h : Inv s) (k : Key) : (∃ s', key s k = .ok s' ∧ Inv s') ∨ (key s k = .oob ∧ Fault s (.key k)) := by
  cases k with
  | start =>
    refine Or.inl ⟨_, rfl, ?_⟩
    split
    · rename_i q
      exact h.next rfl rfl rfl rfl rfl (fun q => ⟨rfl, (h.full q).2⟩) (by simp [q.1]) (or8 h.status (by decide)) h.sense (by simp [Live, q.1])
    · exact h
  | checkReset =>
    refine Or.inl ⟨_, rfl, ?_⟩
    split
    · exact h.next rfl rfl rfl rfl rfl h.full h.taking h.status (by show 0 < 256; decide) id
    · exact h
  | stop => exact Or.inl ⟨_, rfl, h.next rfl rfl rfl rfl rfl h.full h.taking h.status h.sense id⟩
  | space => exact panelPrint_ok h 0x0b (by decide) (Or.inl (by decide))
  | restore => exact panelPrint_ok h 0x8b (by decide) (Or.inr (by decide))
  | single =>
    refine Or.inl ⟨_, rfl, ?_⟩
    split
    · exact h.next rfl rfl rfl rfl rfl h.full h.taking h.status h.sense id
    · exact h
  | paper f =>
    cases f with
    | none => exact Or.inl ⟨_, rfl, h.next rfl rfl rfl rfl rfl h.full h.taking h.status h.sense id⟩
    | some f => exact Or.inl ⟨_, rfl, h.len, h.fcb, h.lpp, Nat.zero_le _, h.col, h.full, h.taking, h.status, h.sense, h.fresh⟩

theorem fire_inv (h : Inv s) : Inv (fire s) := by
  unfold fire
  split
  · exact h
  · exact h.next rfl rfl rfl rfl rfl h.full h.taking h.status h.sense id

theorem step_ok (h : Inv s) (o : Op) : (∃ s', step s o = .ok s' ∧ Inv s') ∨ (step s o = .oob ∧ Fault s o) := by
  cases o with
  | bus t bo bi =>
    rcases dev_ok (t := t) (bo := bo) (bi := bi) h with ⟨r, e, k⟩ | ⟨e, k⟩
    · exact Or.inl ⟨r.1, by simp only [step]; rw [e]; rfl, k⟩
    · exact Or.inr ⟨by simp only [step]; rw [e]; rfl, k⟩
  | event => exact Or.inl ⟨_, rfl, fire_inv h⟩
  | key k => exact key_ok h k

theorem run_inv (os : List Op) : ∀ {s s' : S}, Inv s → run s os = .ok s' → Inv s' := by
  induction os with
  | nil => intro s s' h e; have := Res.ok.inj e; subst this; exact h
  | cons o os ih =>
    intro s s' h e
    obtain ⟨s1, a, b⟩ := bind_inv e
    rcases step_ok h o with ⟨s2, e2, k⟩ | ⟨e2, -⟩
    · rw [a] at e2
      have := Res.ok.inj e2
      subst this
      exact ih k b
    · rw [a] at e2; cases e2

theorem create_inv (addr : Nat) (file : Option (List Nat)) (start : Bool) : Inv (create addr file start) :=
  ⟨by show (List.replicate 144 0).length = 144; rw [List.length_replicate], rfl, rfl, Nat.zero_le _, Nat.zero_le _, (fun q => by cases q), (fun q => by cases q), by show 0 < 256; decide, by show 0 < 256; decide, fun _ j hj => absurd hj (Nat.not_lt_zero j)⟩

theorem Spec.Reachable.inv (h : Spec.Reachable s) : Inv s := by
  obtain ⟨a, f, b, os, e⟩ := h
  exact run_inv os (create_inv a f b) e

/-- **C46** (part): over every history of bus calls, events and keys, the print buffer holds 120 characters at most, the
line stays on the tape, and an access outside of an array can only happen when the paper is moved off the tape, when there is
no file to print to, or when a byte is offered that still has its parity bit.  In particular the print line and the
translation table are never left.  Missing: those three cases, see `C46_violated_line_67`, `C94_violated_top_of_form`,
`C46_violated_no_paper` and `C46_violated_stale_parity`. -/
theorem C46_only_motion_partial (s : S) (hr : Spec.Reachable s) (o : Op) :
    s.col ≤ 120 ∧ s.row ≤ 66 ∧ (s.st = .dataI → s.col < 120) ∧ ((¬ ∃ s', step s o = .ok s') → Fault s o) := by
  refine ⟨hr.inv.col, hr.inv.row, hr.inv.taking, fun h => ?_⟩
  rcases step_ok hr.inv o with ⟨s', e, -⟩ | ⟨-, q⟩
  · exact absurd ⟨s', e⟩ h
  · exact q

/-- **C46**, violated: carriage space without a file writes to no file. -/
theorem C46_violated_no_paper (s : S) (hr : Spec.Reachable s) (hf : s.file = none) (h0 : s.ready = false) : step s (.key .space) = .oob := by
  have hi : Inv { s with cmd := 0x0b } := ⟨hr.inv.len, hr.inv.fcb, hr.inv.lpp, hr.inv.row, hr.inv.col, hr.inv.full, hr.inv.taking, hr.inv.status, hr.inv.sense, hr.inv.fresh⟩
  have e := printLine_none (s := { s with cmd := 0x0b }) hf (show (0x0b : Nat) &&& 7 ≠ 1 by decide) hi (Or.inl (show ((0x0b : Nat) >>> 3) &&& 0x1f = 1 by decide))
  show panelPrint s 0x0b = .oob
  unfold panelPrint
  rw [if_pos h0, e]
  rfl

example : Spec.Reachable (create 0x0e none false) := ⟨0x0e, none, false, [], rfl⟩

/-- **C46**, violated: the restore key looks behind the end of the tape wherever the paper is. -/
theorem C46_violated_restore (s : S) (hr : Spec.Reachable s) (h0 : s.ready = false) : step s (.key .restore) = .oob := by
  rcases step_ok hr.inv (.key .restore) with ⟨s', e, -⟩ | ⟨e, -⟩
  · exfalso
    have hi := hr.inv
    have k : printLine { s with cmd := 0x8b } = .oob := by
      unfold printLine
      rw [printBuf_skip (by show (0x8b : Nat) &&& 7 ≠ 1; decide), bk]
      simp only
      rw [if_neg (by decide), skip_oob { s with cmd := 0x8b } 1 hi.fcb hi.lpp hi.row _ (by decide)]
      intro k hk
      have key : ∀ p ∈ Spec.stops, p.1 = 1 → p.2 = 0 := by decide
      have := key _ hk.1 rfl
      have := hk.2
      omega
    have e' : panelPrint s 0x8b = .ok s' := e
    unfold panelPrint at e'
    rw [if_pos h0, k] at e'
    cases e'
  · exact e

theorem keySpaces (n : Nat) : ∀ (s : S) (f : List Nat), Spec.Loaded s f → s.ready = false → s.row + n ≤ 66 →
    run s (List.replicate n (.key .space)) = .ok { s with file := some (f ++ Spec.newlines n), row := s.row + n, cmd := if n = 0 then s.cmd else 0 } := by
  induction n with
  | zero =>
    intro s f hl _ _
    have e : f ++ Spec.newlines 0 = f := by simp [Spec.newlines]
    simp only [e, if_pos, Nat.add_zero, ← hl.file]
    rfl
  | succ n ih =>
    intro s f hl h0 hr
    have e1 : step s (.key .space) = .ok { s with file := some (f ++ Spec.newlines 1), row := s.row + 1, cmd := 0 } := by
      show panelPrint s 0x0b = _
      unfold panelPrint
      rw [if_pos h0, feed_space (s := { s with cmd := 0x0b }) 1 (f := f) ⟨hl.file, hl.fcb, hl.lpp, hl.row⟩ (by decide) rfl (by show s.row + 1 ≤ 66; omega)]
      rfl
    rw [List.replicate_succ]
    show (step s (.key .space)).bind _ = _
    rw [e1, bk]
    refine (ih { s with file := some (f ++ Spec.newlines 1), row := s.row + 1, cmd := 0 } (f ++ Spec.newlines 1) ⟨rfl, hl.fcb, hl.lpp, by show s.row + 1 ≤ 66; omega⟩ h0 (by show s.row + 1 + n ≤ 66; omega)).trans ?_
    have e : f ++ Spec.newlines 1 ++ Spec.newlines n = f ++ Spec.newlines (n + 1) := by
      rw [newlines_succ n, List.append_assoc]; rfl
    have e2 : (if n = 0 then 0 else 0) = 0 := by split <;> rfl
    simp only [e, Nat.add_assoc, Nat.add_comm 1 n, e2]
    rfl

/-- **C46**, violated by a history anyone can make: with any file attached, the carriage space key moves the paper 66 times
and the 67th time reads behind the end of the carriage control tape. -/
theorem C46_violated_space_key (addr : Nat) (f : List Nat) :
    (∃ s, run (create addr (some f) false) (List.replicate 66 (.key .space)) = .ok s ∧ s.file = some (f ++ Spec.newlines 66)) ∧
    run (create addr (some f) false) (List.replicate 67 (.key .space)) = .oob := by
  have hl : Spec.Loaded (create addr (some f) false) f := ⟨rfl, rfl, rfl, Nat.zero_le _⟩
  have k := keySpaces 66 _ f hl rfl (by show 0 + 66 ≤ 66; decide)
  refine ⟨⟨_, k, rfl⟩, ?_⟩
  have split : ∀ (a b : List Op) (s s' : S), run s a = .ok s' → run s (a ++ b) = run s' b := by
    intro a
    induction a with
    | nil => intro b s s' e; have := Res.ok.inj e; subst this; rfl
    | cons o os ih =>
      intro b s s' e
      obtain ⟨s1, a1, a2⟩ := bind_inv e
      show (step s o).bind _ = _
      rw [a1]
      exact ih b s1 s' a2
  have e67 : List.replicate 67 (Op.key .space) = List.replicate 66 (Op.key .space) ++ [Op.key .space] := by
    rw [show 67 = 66 + 1 from rfl, ← List.replicate_append_replicate]; rfl
  rw [e67, split _ _ _ _ k]
  unfold run step key panelPrint
  rw [if_pos (show (create addr (some f) false).ready = false from rfl)]
  refine (congrArg (fun x => Res.bind (Res.bind x _) _) (?_ : _ = Res.oob)).trans rfl
  exact (feed_space_oob (s := { create addr (some f) false with file := some (f ++ Spec.newlines 66), row := 66, cmd := 0x0b }) 1 (f := f ++ Spec.newlines 66) ⟨rfl, rfl, rfl, Nat.le_refl _⟩ (by decide) rfl (by show 66 < 66 + 1; decide))

/-- A channel selects printer 0e and gives it a command. -/
def exSelect (c : Nat) : List Op :=
  [.bus { opr := true, sel := true, hld := true, adr := true } (Bus.Spec.byte 0x0e) 0, .bus { opr := true, hld := true, oprIn := true } 0 0,
   .bus { opr := true, hld := true, oprIn := true, adrIn := true, cmd := true } (Bus.Spec.byte c) 0]

/-- A space, a reset, a write cut off by a reset after a byte that has its parity bit, a command 10 to the stopped printer
whose status is stacked, the end of the space and a channel that takes the status. -/
def exStale : List Op :=
  exSelect 0x0b ++ [.bus {} 0 0] ++ exSelect 1 ++
  [.bus { opr := true, hld := true, oprIn := true } 0 0, .bus { opr := true, hld := true, oprIn := true, staIn := true, srv := true } 0 0,
   .bus { opr := true, hld := true, oprIn := true } 0 0, .bus { opr := true, hld := true, oprIn := true } 0 0,
   .bus { opr := true, hld := true, oprIn := true, srvIn := true, srv := true } (Bus.Spec.byte 0) 0, .bus {} 0 0, .key .stop] ++ exSelect 0x10 ++
  [.bus { opr := true, hld := true, oprIn := true } 0 0, .bus { opr := true, hld := true, oprIn := true, staIn := true, cmd := true } 0 0, .event,
   .bus { opr := true } 0 0, .bus { opr := true } 0 0, .bus { opr := true, sel := true, hld := true, reqIn := true } 0 0,
   .bus { opr := true, hld := true, oprIn := true, adrIn := true, cmd := true } 0 0]

def staleAt : Res S → Bool
  | .ok s => decide (s.file = some [13, 10]) && decide (s.st = .dataO) && decide (s.selected = true) && decide (256 ≤ s.data)
  | _ => false

/-- **C46**, violated: the third case of `C46_only_motion_partial` happens; the parity table is read outside. -/
theorem C46_violated_stale_parity :
    ∃ s, Spec.Reachable s ∧ s.file = some [13, 10] ∧ step s (.bus { opr := true, hld := true, oprIn := true } 0 0) = .oob := by
  have h : staleAt (run (create 0x0e (some []) true) exStale) = true := by decide +kernel
  cases e : run (create 0x0e (some []) true) exStale with
  | ok s =>
    rw [e] at h
    simp only [staleAt, Bool.and_eq_true, decide_eq_true_eq] at h
    obtain ⟨⟨⟨h1, h2⟩, h3⟩, h4⟩ := h
    refine ⟨s, ⟨_, _, _, _, e⟩, h1, ?_⟩
    show (dev s { hld := true, opr := true, oprIn := true } 0 0).bind _ = _
    unfold dev
    rw [if_neg (by decide)]
    simp only [h2, dataO]
    rw [if_neg (by rw [h3]; decide), withPar_oob _ h4]
    rfl
  | oob => rw [e] at h; cases h
  | fuel => rw [e] at h; cases h

end
end Verif.Lpr
