import Verif.Lpr.Session
/-!
# Jobs, commands, sense, reset and lines of the 1443 (C96 to C100)
-/
namespace Verif.Lpr
open Verif.Bus
open Verif.Card (Res)

namespace Spec

/-- Lines written one after the other, each with its spacing. -/
def job (L : Link) : List (Nat × List Nat) → Res Link
  | [] => .ok L
  | l :: ls => (write L (writeSpace l.1) l.2).bind fun r => job r.2 ls

/-- What a job leaves on the paper. -/
inductive Printed : List (Nat × List Nat) → List Nat → Prop
  | nil : Printed [] []
  | cons {n : Nat} {bs w p : List Nat} {ls : List (Nat × List Nat)} : Trimmed (bs.map glyph) w → Printed ls p → Printed ((n, bs) :: ls) (w ++ newlines n ++ p)

end Spec

/-- **C98** (part): any number of lines that fit on the form come out one below the other. -/
theorem C98_job_partial (ls : List (Nat × List Nat)) : ∀ (s : S) (f : List Nat) (bi : Nat), Spec.Loaded s f → Spec.AtRest s → s.ready = true →
    (∀ l ∈ ls, l.1 ≤ 3 ∧ l.2.length ≤ 120 ∧ ∀ v ∈ l.2, v < 256) → s.row + (ls.map Prod.fst).sum ≤ 66 →
    ∃ L p, Spec.job ⟨s, Bus.Spec.rest, bi⟩ ls = .ok L ∧ Spec.Printed ls p ∧ Spec.Loaded L.s (f ++ p) ∧ L.s.row = s.row + (ls.map Prod.fst).sum ∧ L.t = Bus.Spec.rest ∧ Spec.AtRest L.s ∧ L.s.ready = true := by
  induction ls with
  | nil =>
    intro s f bi hl hs hr _ _
    exact ⟨_, [], rfl, .nil, by rw [List.append_nil]; exact hl, rfl, rfl, hs, hr⟩
  | cons l ls ih =>
    intro s f bi hl hs hr hg hrow
    rw [List.map_cons, List.sum_cons] at hrow ⊢
    obtain ⟨h1, h2, h3⟩ := hg l List.mem_cons_self
    obtain ⟨L, w, e, k1, k2, k3, k4, -, -, k5, k6⟩ := C98_write_partial s f l.2 l.1 bi hl hs hr h3 h2 h1 (by omega)
    obtain ⟨s1, t1, b1⟩ := L
    simp only at k2 k3 k4 k5 k6
    subst k4
    obtain ⟨L2, p, e2, q1, q2, q3, q4, q5, q6⟩ := ih s1 _ b1 k2 k5 k6 (fun x hx => hg x (List.mem_cons_of_mem _ hx)) (by rw [k3]; omega)
    refine ⟨L2, w ++ Spec.newlines l.1 ++ p, ?_, .cons k1 q1, ?_, by rw [q3, k3]; omega, q4, q5, q6⟩
    · unfold Spec.job
      rw [e, bk]
      exact e2
    · rw [← List.append_assoc, ← List.append_assoc]; exact q2

example : ∃ ls : List (Nat × List Nat), ls.length = 3 ∧ (∀ l ∈ ls, l.1 ≤ 3 ∧ l.2.length ≤ 120 ∧ ∀ v ∈ l.2, v < 256) ∧ (create 0x0e (some []) true).row + (ls.map Prod.fst).sum ≤ 66 :=
  ⟨[(1, [0xc1, 0xc2]), (3, []), (0, [0x40])], rfl, by decide, by decide⟩

/-! ## C96: which commands there are -/

namespace Spec

/-- The commands of the 1443: test I/O, sense, write and motion, with spacing of 0 to 3 lines or skip to channel 1 to 12. -/
def Documented (c : Nat) : Prop :=
  c = 0 ∨ c = 4 ∨ (∃ n, n ≤ 3 ∧ (c = writeSpace n ∨ c = spaceNow n)) ∨ (∃ ch, 1 ≤ ch ∧ ch ≤ 12 ∧ (c = writeSkip ch ∨ c = skipNow ch))

/-- Motion at once. -/
def Immediate (c : Nat) : Prop := c % 4 = 3

end Spec

theorem badMotion_iff (c : Nat) (h : c < 256) : (c &&& 7 = 1 ∨ c &&& 7 = 3) → (badMotion c = false ↔ Spec.Documented c) := by
  have key : ∀ c : Fin 256, (c.val &&& 7 = 1 ∨ c.val &&& 7 = 3) → (badMotion c.val = false ↔
      ((c.val = 0 ∨ c.val = 4 ∨ (∃ n : Fin 4, c.val = 8 * n.val + 1 ∨ c.val = 8 * n.val + 3) ∨ (∃ ch : Fin 13, 1 ≤ ch.val ∧ (c.val = 128 + 8 * ch.val + 1 ∨ c.val = 128 + 8 * ch.val + 3))))) := by decide +kernel
  intro hc
  rw [key ⟨c, h⟩ hc]
  unfold Spec.Documented Spec.writeSpace Spec.spaceNow Spec.writeSkip Spec.skipNow
  constructor
  · rintro (q | q | ⟨n, q⟩ | ⟨n, q1, q⟩)
    · exact Or.inl q
    · exact Or.inr (Or.inl q)
    · exact Or.inr (Or.inr (Or.inl ⟨n.val, by omega, q⟩))
    · exact Or.inr (Or.inr (Or.inr ⟨n.val, q1, by omega, q⟩))
  · rintro (q | q | ⟨n, hn, q⟩ | ⟨n, q1, hn, q⟩)
    · exact Or.inl q
    · exact Or.inr (Or.inl q)
    · exact Or.inr (Or.inr (Or.inl ⟨⟨n, by omega⟩, q⟩))
    · exact Or.inr (Or.inr (Or.inr ⟨⟨n, by omega⟩, q1, q⟩))

theorem documented_low (c : Nat) (h : Spec.Documented c) : c = 0 ∨ c = 4 ∨ c &&& 7 = 1 ∨ c &&& 7 = 3 := by
  have e : ∀ c : Nat, c &&& 7 = c % 8 := fun c => Nat.and_two_pow_sub_one_eq_mod c 3
  rw [e]
  unfold Spec.Documented Spec.writeSpace Spec.spaceNow Spec.writeSkip Spec.skipNow at h
  rcases h with q | q | ⟨n, hn, q⟩ | ⟨n, q1, hn, q⟩
  · exact Or.inl q
  · exact Or.inr (Or.inl q)
  · rcases q with q | q <;> omega
  · rcases q with q | q <;> omega

/-- **C96** (part): a ready printer answers a command that is in the manual with status zero, or channel end for a motion at
once, and any other command with unit check, the sense byte saying command reject, without moving the paper.  Missing: the
31 commands of the test I/O group, `C96_violated_hang`, and the motions that leave the tape (C46). -/
theorem C96_decode_partial (s : S) (f : List Nat) (c bi : Nat) (hl : Spec.Loaded s f) (hs : Spec.AtRest s) (hr : s.ready = true) (hc : c < 256)
    (hg : c % 8 = 0 → c = 0) (hm : Spec.Immediate c → Spec.Documented c → Spec.Moves s.row c) :
    ∃ L, Bus.Spec.initialSelection dev ⟨s, Bus.Spec.rest, bi⟩ s.addr c true = .ok L ∧ L.t.staIn = true ∧
      (Spec.Documented c → ¬ Spec.Immediate c → L.bi = Bus.Spec.byte 0 ∧ L.s.file = some f) ∧
      (Spec.Documented c → Spec.Immediate c → L.bi = Bus.Spec.byte 0x08) ∧
      (¬ Spec.Documented c → L.bi = Bus.Spec.byte 0x0e ∧ L.s.sense = 0x80 ∧ L.s.file = some f ∧ L.s.row = s.row) := by
  have e7 : c &&& 7 = c % 8 := Nat.and_two_pow_sub_one_eq_mod c 3
  have run : ∀ s', command { s with st := .sel, selected := true } (Bus.Spec.byte c) = .ok s' → s'.st = .cmd → s'.selected = true → s'.status < 256 →
      (Spec.Documented c → ¬ Spec.Immediate c → s'.status = 0 ∧ s'.file = some f) → (Spec.Documented c → Spec.Immediate c → s'.status = 8) →
      (¬ Spec.Documented c → s'.status = 0x0e ∧ s'.sense = 0x80 ∧ s'.file = some f ∧ s'.row = s.row) →
      ∃ L, Bus.Spec.initialSelection dev ⟨s, Bus.Spec.rest, bi⟩ s.addr c true = .ok L ∧ L.t.staIn = true ∧
        (Spec.Documented c → ¬ Spec.Immediate c → L.bi = Bus.Spec.byte 0 ∧ L.s.file = some f) ∧
        (Spec.Documented c → Spec.Immediate c → L.bi = Bus.Spec.byte 0x08) ∧
        (¬ Spec.Documented c → L.bi = Bus.Spec.byte 0x0e ∧ L.s.sense = 0x80 ∧ L.s.file = some f ∧ L.s.row = s.row) := by
    intro s' e h1 h2 h3 k1 k2 k3
    refine ⟨_, initSel_ok s bi c hs e h1 h2 h3, rfl, ?_, ?_, ?_⟩
    · intro a b
      obtain ⟨q1, q2⟩ := k1 a b
      exact ⟨by show Bus.Spec.byte s'.status = _; rw [q1], q2⟩
    · intro a b
      show Bus.Spec.byte s'.status = _
      rw [k2 a b]
    · intro a
      obtain ⟨q1, q2⟩ := k3 a
      exact ⟨by show Bus.Spec.byte s'.status = _; rw [q1], q2⟩
  have imm : Spec.Immediate c ↔ c % 4 = 3 := Iff.rfl
  have nready : ¬ (s.ready = false ∨ s.file = none) := by rw [hr, hl.file]; simp
  by_cases h3 : c % 8 = 3
  · by_cases hb : badMotion c = true
    · have nd : ¬ Spec.Documented c := fun q => by have := (badMotion_iff c hc (Or.inr (e7.trans h3))).2 q; rw [this] at hb; cases hb
      refine run { s with st := .cmd, selected := true, dataRdy := false, dataEnd := false, col := 0, cnt := 0, feedDone := false, status := 0x0e, sense := 0x80, cmd := 0 } ?_ rfl rfl (by show 0x0e < 256; decide) (fun q => absurd q nd) (fun q => absurd q nd) (fun _ => ⟨rfl, rfl, hl.file, rfl⟩)
      unfold command
      simp only [byte_mod c hc, parBad_byte c hc]
      rw [if_neg nready]
      unfold decode
      simp only [e7, h3, hb]
      rfl
    · have hb' : badMotion c = false := by simpa using hb
      have dd : Spec.Documented c := (badMotion_iff c hc (Or.inr (e7.trans h3))).1 hb'
      have him : Spec.Immediate c := by rw [imm]; omega
      have mv := hm him dd
      rcases printEvent_ok (s := { s with st := .cmd, selected := true, cmd := c, dataRdy := false, dataEnd := false, col := 0, cnt := 0, feedDone := false, status := 0, sense := 0 }) (f := f) ⟨hl.file, hl.fcb, hl.lpp, hl.row⟩ (fun q => by rw [show ({ s with st := .cmd, selected := true, cmd := c, dataRdy := false, dataEnd := false, col := 0, cnt := 0, feedDone := false, status := 0, sense := 0 } : S).cmd = c from rfl, e7, h3] at q; cases q) with ⟨f', b, r, a, v, fd, ev, e, -⟩ | ⟨-, q⟩
      · refine run { s with st := .cmd, selected := true, cmd := c, dataRdy := false, dataEnd := true, col := 0, cnt := 0, feedDone := fd, status := sChnEnd, sense := a, file := some f', buf := b, row := r, evs := ev } ?_ rfl rfl (by show sChnEnd < 256; decide) (fun _ q => absurd him q) (fun _ _ => rfl) (fun q => absurd dd q)
        unfold command
        simp only [byte_mod c hc, parBad_byte c hc]
        rw [if_neg nready]
        unfold decode
        simp only [e7, h3, hb']
        rw [if_neg (by decide), e, bk, bk]
        rfl
      · exact absurd mv q
  · have nim : c % 8 = 7 ∨ ¬ Spec.Immediate c := by rw [imm]; omega
    by_cases h1 : c % 8 = 1
    · have nim : ¬ Spec.Immediate c := by rw [imm]; omega
      by_cases hb : badMotion c = true
      · have nd : ¬ Spec.Documented c := fun q => by have := (badMotion_iff c hc (Or.inl (e7.trans h1))).2 q; rw [this] at hb; cases hb
        refine run { s with st := .cmd, selected := true, dataRdy := false, dataEnd := false, col := 0, cnt := 0, feedDone := false, status := 0x0e, sense := 0x80, cmd := 0 } ?_ rfl rfl (by show 0x0e < 256; decide) (fun q => absurd q nd) (fun q => absurd q nd) (fun _ => ⟨rfl, rfl, hl.file, rfl⟩)
        unfold command
        simp only [byte_mod c hc, parBad_byte c hc]
        rw [if_neg nready]
        unfold decode
        simp only [e7, h1, hb]
        rfl
      · have hb' : badMotion c = false := by simpa using hb
        have dd : Spec.Documented c := (badMotion_iff c hc (Or.inl (e7.trans h1))).1 hb'
        exact run _ (command_write s c f hr hl.file hc (e7.trans h1) hb') rfl rfl (by show 0 < 256; decide) (fun _ _ => ⟨rfl, hl.file⟩) (fun _ q => absurd q nim) (fun q => absurd dd q)
    · by_cases h0 : c % 8 = 0
      · have := hg h0
        subst this
        have dd : Spec.Documented 0 := Or.inl rfl
        refine run { s with st := .cmd, selected := true, cmd := 0, dataRdy := false, dataEnd := false, col := 0, cnt := 0, feedDone := false, status := 0 } ?_ rfl rfl (by show 0 < 256; decide) (fun _ _ => ⟨rfl, hl.file⟩) (fun _ q => absurd q (by rw [imm]; decide)) (fun q => absurd dd q)
        unfold command
        simp only [byte_mod 0 hc, parBad_byte 0 hc]
        rw [if_neg nready]
        unfold decode
        simp only [show (0 : Nat) &&& 7 = 0 from rfl]
        rfl
      · by_cases h4 : c = 4
        · subst h4
          have dd : Spec.Documented 4 := Or.inr (Or.inl rfl)
          refine run { s with st := .cmd, selected := true, cmd := 4, dataRdy := true, dataEnd := true, col := 0, cnt := 0, feedDone := false, status := 0, data := s.sense } ?_ rfl rfl (by show 0 < 256; decide) (fun _ _ => ⟨rfl, hl.file⟩) (fun _ q => absurd q (by rw [imm]; decide)) (fun q => absurd dd q)
          unfold command
          simp only [byte_mod 4 hc, parBad_byte 4 hc]
          rw [if_neg nready]
          unfold decode
          simp only [show (4 : Nat) &&& 7 = 4 from rfl]
          rfl
        · have nd : ¬ Spec.Documented c := by
            intro q
            rcases documented_low c q with q | q | q | q
            · omega
            · exact h4 q
            · rw [e7] at q; exact h1 q
            · rw [e7] at q; exact h3 q
          have hrest : ∃ k, command { s with st := .sel, selected := true } (Bus.Spec.byte c) = .ok { s with st := .cmd, selected := true, cmd := k, dataRdy := false, dataEnd := false, col := 0, cnt := 0, feedDone := false, status := 0x0e, sense := 0x80 } := by
            have h8 : c % 8 = 2 ∨ c % 8 = 4 ∨ c % 8 = 5 ∨ c % 8 = 6 ∨ c % 8 = 7 := by omega
            unfold command
            simp only [byte_mod c hc, parBad_byte c hc]
            rw [if_neg nready]
            unfold decode
            rcases h8 with q | q | q | q | q <;> simp only [e7, q]
            · exact ⟨c, rfl⟩
            · rw [if_pos h4]; exact ⟨0, rfl⟩
            · exact ⟨0, rfl⟩
            · exact ⟨0, rfl⟩
            · exact ⟨0, rfl⟩
          obtain ⟨k, e⟩ := hrest
          exact run _ e rfl rfl (by show 0x0e < 256; decide) (fun q => absurd q nd) (fun q => absurd q nd) (fun _ => ⟨rfl, rfl, hl.file, rfl⟩)

/-- Both kinds of answer occur, for a fresh printer. -/
example : Spec.Documented (Spec.writeSkip 12) ∧ Spec.Immediate (Spec.spaceNow 2) ∧ Spec.Moves 0 (Spec.spaceNow 2) ∧ ¬ Spec.Documented 0xe9 := by
  refine ⟨Or.inr (Or.inr (Or.inr ⟨12, by decide, by decide, Or.inl rfl⟩)), rfl, Or.inl (by decide), ?_⟩
  intro h
  have := (badMotion_iff 0xe9 (by decide) (Or.inl rfl)).2 h
  revert this
  decide

/-- The printer waits for nothing. -/
structure Stuck (s : S) : Prop where
  st : s.st = .opr
  rdy : s.dataRdy = false
  cmd : s.cmd &&& 7 = 0
  ce : s.status &&& sChnEnd = 0
  de : s.status &&& sDevEnd = 0

/-- A call of the bus function that is not a reset, an event or a key. -/
def Spec.NoReset : Op → Prop
  | .bus t _ _ => t.opr = true ∨ t.sup = true
  | _ => True

theorem Stuck.step {s s' : S} {o : Op} (h : Stuck s) (hi : Inv s) (ho : Spec.NoReset o) (e : step s o = .ok s') : Stuck s' := by
  have h1 : s.cmd &&& 7 ≠ 1 := by rw [h.cmd]; decide
  have h4 : s.cmd ≠ 4 := by intro q; have := h.cmd; rw [q] at this; cases this
  cases o with
  | bus t bo bi =>
    obtain ⟨r, a, b⟩ := bind_inv e
    have := Res.ok.inj b
    subst this
    unfold dev at a
    rw [if_neg (by rintro ⟨q1, q2⟩; rcases ho with q | q <;> simp_all)] at a
    simp only [h.st] at a
    unfold opr at a
    simp only at a
    generalize (if s.selected = true then ({ t with sel := false } : Tags) else t) = t1 at a
    split at a
    · have := Res.ok.inj a; subst this; exact ⟨h.st, h.rdy, h.cmd, h.ce, h.de⟩
    split at a
    · have := Res.ok.inj a; subst this; exact ⟨h.st, rfl, h.cmd, h.ce, h.de⟩
    split at a
    · have := Res.ok.inj a; subst this; exact h
    split at a
    · have := Res.ok.inj a; subst this; exact ⟨h.st, h.rdy, h.cmd, h.ce, h.de⟩
    unfold oprData at a
    rw [if_neg (by rw [h.rdy]; decide)] at a
    split at a
    · obtain ⟨s1, a1, a2⟩ := bind_inv a
      have := Res.ok.inj a2
      subst this
      unfold oprEnd at a1
      simp only [if_neg h4, if_neg h1, bk] at a1
      rw [if_neg (by rw [h.de]; decide), if_neg (by rw [h.ce]; decide)] at a1
      have := Res.ok.inj a1
      subst this
      exact ⟨h.st, h.rdy, h.cmd, h.ce, h.de⟩
    · have := Res.ok.inj a; subst this; exact h
  | event =>
    have := Res.ok.inj e
    subst this
    unfold fire
    split
    · exact h
    · exact ⟨h.st, h.rdy, h.cmd, h.ce, h.de⟩
  | key k =>
    have hne : s.st ≠ .idle := by rw [h.st]; decide
    cases k with
    | start => have := Res.ok.inj e; subst this; rw [if_neg (fun q => hne q.1)]; exact h
    | checkReset => have := Res.ok.inj e; subst this; rw [if_neg hne]; exact h
    | stop => have := Res.ok.inj e; subst this; exact ⟨h.st, h.rdy, h.cmd, h.ce, h.de⟩
    | single => have := Res.ok.inj e; subst this; rw [if_neg (fun q => hne q.1)]; exact h
    | paper f => have := Res.ok.inj e; subst this; cases f <;> exact ⟨h.st, h.rdy, h.cmd, h.ce, h.de⟩
    | space =>
      change panelPrint s 0x0b = .ok s' at e
      unfold panelPrint at e
      split at e
      · cases hf : s.file with
        | none =>
          have q := printLine_none (s := { s with cmd := 0x0b }) hf (show (0x0b : Nat) &&& 7 ≠ 1 by decide) ⟨hi.len, hi.fcb, hi.lpp, hi.row, hi.col, hi.full, hi.taking, hi.status, hi.sense, hi.fresh⟩ (Or.inl (show ((0x0b : Nat) >>> 3) &&& 0x1f = 1 by decide))
          rw [q] at e; cases e
        | some f =>
          rcases Nat.lt_or_ge 66 (s.row + 1) with q | q
          · rw [feed_space_oob (s := { s with cmd := 0x0b }) 1 (f := f) ⟨hf, hi.fcb, hi.lpp, hi.row⟩ (by decide) rfl q] at e; cases e
          · rw [feed_space (s := { s with cmd := 0x0b }) 1 (f := f) ⟨hf, hi.fcb, hi.lpp, hi.row⟩ (by decide) rfl q] at e
            have := Res.ok.inj e; subst this
            exact ⟨h.st, h.rdy, (by show (0 : Nat) &&& 7 = 0; rfl), h.ce, h.de⟩
      · have := Res.ok.inj e; subst this; exact h
    | restore =>
      change panelPrint s 0x8b = .ok s' at e
      unfold panelPrint at e
      split at e
      · have q : printLine { s with cmd := 0x8b } = .oob := by
          unfold printLine
          rw [printBuf_skip (by show (0x8b : Nat) &&& 7 ≠ 1; decide), bk]
          simp only
          rw [if_neg (by decide), skip_oob { s with cmd := 0x8b } 1 hi.fcb hi.lpp hi.row _ (by decide)]
          intro k hk
          have key : ∀ p ∈ Spec.stops, p.1 = 1 → p.2 = 0 := by decide
          have := key _ hk.1 rfl
          have := hk.2
          omega
        rw [q] at e; cases e
      · have := Res.ok.inj e; subst this; exact h

theorem Stuck.run (os : List Op) : ∀ {s s' : S}, Stuck s → Inv s → (∀ o ∈ os, Spec.NoReset o) → run s os = .ok s' → Stuck s' := by
  induction os with
  | nil => intro s s' h _ _ e; have := Res.ok.inj e; subst this; exact h
  | cons o os ih =>
    intro s s' h hi ho e
    obtain ⟨s1, a, b⟩ := bind_inv e
    have k := Stuck.step h hi (ho o List.mem_cons_self) a
    rcases step_ok hi o with ⟨s2, e2, ki⟩ | ⟨e2, -⟩
    · rw [a] at e2
      have := Res.ok.inj e2
      subst this
      exact ih k ki (fun x hx => ho x (List.mem_cons_of_mem _ hx)) b
    · rw [a] at e2; cases e2

/-- **C96**, violated: a command byte other than test I/O whose last three bits are zero is accepted with status zero, and
whatever happens then, short of a reset, the printer never presents an ending status: it stays in the same state for ever. -/
theorem C96_violated_hang (s : S) (f : List Nat) (c bi : Nat) (hR : Spec.Reachable s) (hl : Spec.Loaded s f) (hs : Spec.AtRest s) (hr : s.ready = true) (hc : c < 256) (h8 : c % 8 = 0) (h0 : c ≠ 0) :
    ∃ L0 L1, Bus.Spec.initialSelection dev ⟨s, Bus.Spec.rest, bi⟩ s.addr c true = .ok L0 ∧ L0.bi = Bus.Spec.byte 0 ∧
      Bus.Spec.accept dev L0 0 = .ok L1 ∧ ∀ os s', (∀ o ∈ os, Spec.NoReset o) → run L1.s os = .ok s' → s'.st = .opr := by
  have e7 : c &&& 7 = 0 := by rw [← h8]; exact Nat.and_two_pow_sub_one_eq_mod c 3
  have nready : ¬ (s.ready = false ∨ s.file = none) := by rw [hr, hl.file]; simp
  have e : command { s with st := .sel, selected := true } (Bus.Spec.byte c) = .ok { s with st := .cmd, selected := true, cmd := c, dataRdy := false, dataEnd := false, col := 0, cnt := 0, feedDone := false, status := 0 } := by
    unfold command
    simp only [byte_mod c hc, parBad_byte c hc]
    rw [if_neg nready]
    unfold decode
    simp only [e7]
    rfl
  have hi := hR.inv
  generalize hs1 : ({ s with st := .cmd, selected := true, cmd := c, dataRdy := false, dataEnd := false, col := 0, cnt := 0, feedDone := false, status := 0 } : S) = s1 at e
  have e1 : dev s1 { opr := true, hld := true, oprIn := true, staIn := true, srv := true } 0 (Bus.Spec.byte s1.status) =
      .ok ({ s1 with st := .initStat }, { opr := true, hld := true, oprIn := true, srv := true }, Bus.Spec.byte 0) := by
    subst hs1
    unfold dev
    rw [if_neg (by simp)]
    simp only [cmdSt, if_true]
    rw [if_neg (by simp), if_neg (by simp), withPar_ok _ (by decide), bk]
  have e2 : dev { s1 with st := .initStat } { opr := true, hld := true, oprIn := true } 0 (Bus.Spec.byte 0) = .ok ({ s1 with st := .opr }, { opr := true, hld := true, oprIn := true }, Bus.Spec.byte 0) := by
    subst hs1
    unfold dev
    rw [if_neg (by simp)]
    simp [initStat, h0]
  refine ⟨_, ⟨{ s1 with st := .opr }, { opr := true, hld := true, oprIn := true }, Bus.Spec.byte 0⟩, initSel_ok s bi c hs e (by subst hs1; rfl) (by subst hs1; rfl) (by subst hs1; show 0 < 256; decide), by subst hs1; rfl, ?_, ?_⟩
  · unfold Bus.Spec.accept
    rw [poll_ok (by exact e1), bk]
    exact poll_ok (by exact e2)
  · intro os s' ho er
    subst hs1
    have ki : Inv { s with st := .opr, selected := true, cmd := c, dataRdy := false, dataEnd := false, col := 0, cnt := 0, feedDone := false, status := 0 } := ⟨hi.len, hi.fcb, hi.lpp, hi.row, Nat.zero_le _, (fun q => by cases q), (fun q => by cases q), by show 0 < 256; decide, hi.sense, fun _ j hj => absurd hj (Nat.not_lt_zero j)⟩
    exact (Stuck.run os ⟨rfl, rfl, e7, Nat.zero_and _, Nat.zero_and _⟩ ki ho er).st

/-! ## C97: sense -/

namespace Spec

/-- A sense command: initial status, the sense byte, the ending status as it first appears, and the end. -/
def senseCmd (L : Link) : Res ((Nat × Nat × Nat) × Link × Link) :=
  (Bus.Spec.initialSelection dev L L.s.addr 4 true).bind fun L0 =>
  (Bus.Spec.poll dev L0 (fun t => { t with srv := true }) 0).bind fun L =>
  (Bus.Spec.poll dev L (fun t => { t with srv := false, hld := false }) 0).bind fun L =>
  (attend L).bind fun L1 => (Bus.Spec.accept dev L1 0).bind fun L => (attend L).bind fun L2 =>
  (Bus.Spec.accept dev L2 0).bind fun L => .ok ((L0.bi, L1.bi, L2.bi), L2, L)

end Spec

theorem sense_ok (s : S) (f : List Nat) (bi : Nat) (hl : Spec.Loaded s f) (hs : Spec.AtRest s) (hr : s.ready = true) (hv : s.sense < 256) :
    ∃ L2 L, Spec.senseCmd ⟨s, Bus.Spec.rest, bi⟩ = .ok ((Bus.Spec.byte 0, Bus.Spec.byte s.sense, Bus.Spec.byte 0x0c), L2, L) ∧ L2.t = showing ∧
      (∃ L3, Bus.Spec.poll dev L2 id 0 = .ok L3 ∧ L3.t = showing ∧ L3.bi = Bus.Spec.byte (if s.sense ≠ 0 then 0x0e else 0x0c)) ∧
      L.t = Bus.Spec.rest ∧ Spec.AtRest L.s ∧ L.s.file = some f ∧ L.s.row = s.row ∧ L.s.sense = s.sense := by
  have nready : ¬ (s.ready = false ∨ s.file = none) := by rw [hr, hl.file]; simp
  have e : command { s with st := .sel, selected := true } (Bus.Spec.byte 4) = .ok { s with st := .cmd, selected := true, cmd := 4, dataRdy := true, dataEnd := true, col := 0, cnt := 0, feedDone := false, status := 0, data := s.sense } := by
    unfold command
    simp only [byte_mod 4 (by decide), parBad_byte 4 (by decide)]
    rw [if_neg nready]
    unfold decode
    simp only [show (4 : Nat) &&& 7 = 4 from rfl]
    rfl
  have e0 := initSel_ok s bi 4 hs e rfl rfl (by show 0 < 256; decide)
  generalize hs1 : ({ s with st := .cmd, selected := true, cmd := 4, dataRdy := true, dataEnd := true, col := 0, cnt := 0, feedDone := false, status := 0, data := s.sense } : S) = s1 at e0
  unfold Spec.senseCmd
  rw [e0, bk]
  have e1 : dev s1 { opr := true, hld := true, oprIn := true, staIn := true, srv := true } 0 (Bus.Spec.byte s1.status) =
      .ok ({ s1 with st := .initStat }, { opr := true, hld := true, oprIn := true, srv := true }, Bus.Spec.byte 0) := by
    subst hs1
    unfold dev
    rw [if_neg (by simp)]
    simp only [cmdSt, if_true]
    rw [if_neg (by simp), if_neg (by simp), withPar_ok _ (by decide), bk]
  rw [poll_ok (by exact e1), bk]
  have e2 : dev { s1 with st := .initStat } { opr := true, oprIn := true } 0 (Bus.Spec.byte 0) = .ok ({ s1 with st := .opr }, { opr := true, oprIn := true }, Bus.Spec.byte 0) := by
    subst hs1
    unfold dev
    rw [if_neg (by simp)]
    simp [initStat]
  rw [poll_ok (by exact e2), bk]
  have e3 : dev { s1 with st := .opr } { opr := true, oprIn := true } 0 (Bus.Spec.byte 0) = .ok ({ s1 with st := .dataO }, { opr := true, oprIn := true }, Bus.Spec.byte 0) := by
    subst hs1
    unfold dev
    rw [if_neg (by simp)]
    simp [opr, oprData, tst]
  have e4 : dev { s1 with st := .dataO } { opr := true, oprIn := true } 0 (Bus.Spec.byte 0) = .ok ({ s1 with st := .dataO }, wanted, Bus.Spec.byte s.sense) := by
    subst hs1
    unfold dev
    rw [if_neg (by simp)]
    simp [dataO, withPar_ok _ hv, bk, wanted]
  have a1 : Spec.attend ⟨{ s1 with st := .opr }, { opr := true, oprIn := true }, Bus.Spec.byte 0⟩ = .ok ⟨{ s1 with st := .dataO }, wanted, Bus.Spec.byte s.sense⟩ := by
    unfold Spec.attend
    rw [await_step (by simp) e3, await_step (by simp) e4, await_stop (by rfl), bk, if_neg (by show ¬ (false = true); decide), bk, await_stop (by rfl)]
  rw [a1, bk]
  have e5 : dev { s1 with st := .dataO } { opr := true, oprIn := true, srvIn := true, srv := true } 0 (Bus.Spec.byte s.sense) = .ok ({ s1 with st := .initStat, dataRdy := false }, { opr := true, oprIn := true, srv := true }, Bus.Spec.byte s.sense) := by
    subst hs1
    unfold dev
    rw [if_neg (by simp)]
    simp [dataO, withPar_ok _ hv, bk]
  have e6 : dev { s1 with st := .initStat, dataRdy := false } { opr := true, oprIn := true } 0 (Bus.Spec.byte s.sense) = .ok ({ s1 with st := .opr, dataRdy := false }, { opr := true, oprIn := true }, Bus.Spec.byte s.sense) := by
    subst hs1
    unfold dev
    rw [if_neg (by simp)]
    simp [initStat]
  have a2 : Bus.Spec.accept dev ⟨{ s1 with st := .dataO }, wanted, Bus.Spec.byte s.sense⟩ 0 = .ok ⟨{ s1 with st := .opr, dataRdy := false }, { opr := true, oprIn := true }, Bus.Spec.byte s.sense⟩ := by
    unfold Bus.Spec.accept
    rw [poll_ok (by exact e5), bk]
    exact poll_ok (by exact e6)
  rw [a2, bk]
  have e7 : dev { s1 with st := .opr, dataRdy := false } { opr := true, oprIn := true } 0 (Bus.Spec.byte s.sense) = .ok ({ s1 with st := .fin, dataRdy := false, status := 0x0c }, { opr := true, oprIn := true }, Bus.Spec.byte s.sense) := by
    subst hs1
    unfold dev
    rw [if_neg (by simp)]
    simp [opr, oprData, oprEnd, bk, sDevEnd, sChnEnd]
  have e8 : dev { s1 with st := .fin, dataRdy := false, status := 0x0c } { opr := true, oprIn := true } 0 (Bus.Spec.byte s.sense) =
      .ok ({ s1 with st := .fin, dataRdy := false, status := if s.sense ≠ 0 then 0x0e else 0x0c, cmd := 0 }, showing, Bus.Spec.byte 0x0c) := by
    subst hs1
    unfold dev
    rw [if_neg (by simp)]
    simp [endSt, hs.busyFlag, withPar_ok _ (show 0x0c < 256 by decide), bk, showing, sUnitChk]
  have a3 : Spec.attend ⟨{ s1 with st := .opr, dataRdy := false }, { opr := true, oprIn := true }, Bus.Spec.byte s.sense⟩ = .ok ⟨{ s1 with st := .fin, dataRdy := false, status := if s.sense ≠ 0 then 0x0e else 0x0c, cmd := 0 }, showing, Bus.Spec.byte 0x0c⟩ := by
    unfold Spec.attend
    rw [await_step (by simp) e7, await_step (by simp) e8, await_stop (by rfl), bk, if_neg (by show ¬ (false = true); decide), bk, await_stop (by rfl)]
  rw [a3, bk]
  have hw : (if s.sense ≠ 0 then 0x0e else 0x0c) < 256 := by split <;> decide
  generalize (if s.sense ≠ 0 then 0x0e else 0x0c) = w at hw ⊢
  have e9 : dev { s1 with st := .fin, dataRdy := false, status := w, cmd := 0 } { opr := true, oprIn := true, staIn := true, srv := true } 0 (Bus.Spec.byte 0x0c) =
      .ok ({ s1 with st := .idle, dataRdy := false, status := w, cmd := 0, selected := false, busyFlag := false }, { opr := true, srv := true }, Bus.Spec.byte w) := by
    subst hs1
    unfold dev
    rw [if_neg (by simp)]
    simp [endSt, hs.busyFlag, withPar_ok _ hw, bk]
  have e10 : dev { s1 with st := .idle, dataRdy := false, status := w, cmd := 0, selected := false, busyFlag := false } { opr := true } 0 (Bus.Spec.byte w) =
      .ok ({ s1 with st := .idle, dataRdy := false, status := w, cmd := 0, selected := false, busyFlag := false }, Bus.Spec.rest, Bus.Spec.byte w) := by
    unfold dev
    rw [if_neg (by simp)]
    simp [idle, isSelect, Bus.Spec.rest]
  have a4 : Bus.Spec.accept dev ⟨{ s1 with st := .fin, dataRdy := false, status := w, cmd := 0 }, showing, Bus.Spec.byte 0x0c⟩ 0 = .ok ⟨{ s1 with st := .idle, dataRdy := false, status := w, cmd := 0, selected := false, busyFlag := false }, Bus.Spec.rest, Bus.Spec.byte w⟩ := by
    unfold Bus.Spec.accept
    rw [poll_ok (by exact e9), bk]
    exact poll_ok (by exact e10)
  have e11 : dev { s1 with st := .fin, dataRdy := false, status := w, cmd := 0 } showing 0 (Bus.Spec.byte 0x0c) = .ok ({ s1 with st := .fin, dataRdy := false, status := w, cmd := 0 }, showing, Bus.Spec.byte w) := by
    subst hs1
    unfold dev
    rw [if_neg (by simp [showing])]
    simp [endSt, hs.busyFlag, withPar_ok _ hw, bk, showing]
  rw [a4, bk]
  subst hs1
  exact ⟨_, _, rfl, rfl, ⟨_, poll_ok (by exact e11), rfl, rfl⟩, rfl, ⟨rfl, hs.addr, rfl, hs.addressed, hs.stacked, rfl, hs.len⟩, hl.file, rfl, rfl⟩

/-- **C97** (part): a ready printer hands its sense byte to a sense command and shows channel end and device end.  Missing:
printers that are not ready, `C97_violated_not_ready`, and a sense byte other than zero, `C97_violated_ending`. -/
theorem C97_sense_partial (s : S) (f : List Nat) (bi : Nat) (hl : Spec.Loaded s f) (hs : Spec.AtRest s) (hr : s.ready = true) (hv : s.sense < 256) :
    ∃ L2 L, Spec.senseCmd ⟨s, Bus.Spec.rest, bi⟩ = .ok ((Bus.Spec.byte 0, Bus.Spec.byte s.sense, Bus.Spec.byte 0x0c), L2, L) ∧
      L.t = Bus.Spec.rest ∧ Spec.AtRest L.s ∧ L.s.file = some f ∧ L.s.row = s.row := by
  obtain ⟨L2, L, e, -, -, k1, k2, k3, k4, -⟩ := sense_ok s f bi hl hs hr hv
  exact ⟨L2, L, e, k1, k2, k3, k4⟩

/-- **C97**, violated: if the sense byte is not zero, the ending status of the sense command itself changes to unit check
while status in is up: what the channel gets depends on how fast it is. -/
theorem C97_violated_ending (s : S) (f : List Nat) (bi : Nat) (hl : Spec.Loaded s f) (hs : Spec.AtRest s) (hr : s.ready = true) (hv : s.sense < 256) (h0 : s.sense ≠ 0) :
    ∃ r L2 L L3, Spec.senseCmd ⟨s, Bus.Spec.rest, bi⟩ = .ok (r, L2, L) ∧ L2.t.staIn = true ∧ L2.bi = Bus.Spec.byte 0x0c ∧
      Bus.Spec.poll dev L2 id 0 = .ok L3 ∧ L3.t = L2.t ∧ L3.bi = Bus.Spec.byte 0x0e := by
  obtain ⟨L2, L, e, k1, ⟨L3, k2, k3, k4⟩, -⟩ := sense_ok s f bi hl hs hr hv
  have e' := e
  refine ⟨_, L2, L, L3, e, by rw [k1]; rfl, ?_, k2, by rw [k3, k1], by rw [k4, if_pos h0]⟩
  unfold Spec.senseCmd at e'
  obtain ⟨L0, -, e'⟩ := bind_inv e'
  obtain ⟨_, -, e'⟩ := bind_inv e'
  obtain ⟨_, -, e'⟩ := bind_inv e'
  obtain ⟨_, -, e'⟩ := bind_inv e'
  obtain ⟨_, -, e'⟩ := bind_inv e'
  obtain ⟨_, -, e'⟩ := bind_inv e'
  obtain ⟨_, -, e'⟩ := bind_inv e'
  have q := Res.ok.inj e'
  have q1 := congrArg (fun x => x.1.2.2) q
  have q2 := congrArg (fun x => x.2.1) q
  simp only at q1 q2
  rw [← q2, q1]

example : Spec.AtRest { create 0x0e (some [1]) true with sense := 0x80 } ∧ ({ create 0x0e (some [1]) true with sense := 0x80 } : S).sense ≠ 0 :=
  ⟨⟨rfl, by decide, rfl, rfl, rfl, rfl, List.length_replicate⟩, by decide⟩

/-- **C97**, violated: a printer that is not ready answers every command, sense too, with unit check, so that its sense byte
cannot be had. -/
theorem C97_violated_not_ready (s : S) (c bi : Nat) (hs : Spec.AtRest s) (hr : s.ready = false ∨ s.file = none) :
    ∃ L, Bus.Spec.initialSelection dev ⟨s, Bus.Spec.rest, bi⟩ s.addr c true = .ok L ∧ L.t.staIn = true ∧ L.bi = Bus.Spec.byte 0x0e := by
  have e : command { s with st := .sel, selected := true } (Bus.Spec.byte c) = .ok { s with st := .cmd, selected := true, cmd := Bus.Spec.byte c % 256, dataRdy := false, dataEnd := false, col := 0, cnt := 0, feedDone := false, status := 0x0e, sense := eInterv } := by
    unfold command
    simp only
    rw [if_pos hr]
    rfl
  exact ⟨_, initSel_ok s bi c hs e rfl rfl (by show 0x0e < 256; decide), rfl, rfl⟩

example : Spec.AtRest (create 0x0e (some [1]) false) ∧ (create 0x0e (some [1]) false).ready = false := ⟨⟨rfl, by decide, rfl, rfl, rfl, rfl, List.length_replicate⟩, rfl⟩

/-! ## C100: reset -/

/-- **C100** (part): after a reset at any moment the printer has dropped its lines and every command and status, the paper is
untouched, and, if it is not left over from before that it was found busy, a line can be printed.  Missing: `C100_violated_event`. -/
theorem C100_reset_partial (s : S) (hR : Spec.Reachable s) (t : Tags) (bo bi : Nat) (ht : t.opr = false ∧ t.sup = false) :
    ∃ s' t', dev s t bo bi = .ok (s', t', bi) ∧ s'.st = .idle ∧ s'.status = 0 ∧ s'.sense = 0 ∧ s'.cmd = 0 ∧ s'.request = false ∧ s'.file = s.file ∧ s'.row = s.row ∧ s'.ready = s.ready ∧
      (s.selected = true ∨ s.addressed = true → Bus.Spec.inDown t') ∧ (s.request = true → t'.reqIn = false) ∧ (s.addr < 256 → s.busyFlag = false → Spec.AtRest s') ∧
      Bus.Spec.outKept t t' := by
  have hi := hR.inv
  unfold dev
  rw [if_pos ht]
  unfold reset
  refine ⟨_, _, rfl, rfl, rfl, rfl, rfl, rfl, rfl, rfl, rfl, ?_, ?_, fun ha hb => ⟨rfl, ha, rfl, rfl, rfl, hb, hi.len⟩, ?_⟩
  · intro h
    have h' : (s.selected || s.addressed) = true := by rcases h with h | h <;> simp [h]
    simp only [h', if_true]
    split <;> exact ⟨rfl, rfl, rfl, rfl⟩
  · intro h
    simp only [h, if_true]
  · unfold Bus.Spec.outKept
    refine ⟨?_, ?_, ?_, ?_, ?_, ?_, ?_⟩
    all_goals (repeat' split)
    all_goals first | rfl | exact id

/-- **C100**, violated: the event of a motion going on survives the reset.  A printer reset after it began to space and then
spaced again shows device end when the first motion is over, with the second still going on. -/
theorem C100_violated_event (s : S) (f : List Nat) (bi bo : Nat) (hR : Spec.Reachable s) (hl : Spec.Loaded s f) (hs : Spec.AtRest s) (hr : s.ready = true) (hrow : s.row + 2 ≤ 66) (he : s.evs = 0) :
    ∃ L0 s1 t1 L, Bus.Spec.initialSelection dev ⟨s, Bus.Spec.rest, bi⟩ s.addr (Spec.spaceNow 1) true = .ok L0 ∧
      dev L0.s {} bo 0 = .ok (s1, t1, 0) ∧ Spec.control ⟨s1, Bus.Spec.rest, 0⟩ (Spec.spaceNow 1) = .ok ((Bus.Spec.byte 0x08, Bus.Spec.byte 0x04), L) ∧ L.s.evs = 1 := by
  have e0 := initSel_ok s bi _ hs (command_feed s 1 f hl hr (by decide) (by omega)) rfl rfl (by show sChnEnd < 256; decide)
  generalize hs1 : ({ s with st := .cmd, selected := true, cmd := Spec.spaceNow 1, dataRdy := false, dataEnd := true, col := 0, cnt := 0, feedDone := false, status := sChnEnd, sense := 0, file := some (f ++ Spec.newlines 1), row := s.row + 1, evs := s.evs + 1 } : S) = s1 at e0
  have er : dev s1 {} bo 0 = .ok (reset s1 {} 0) := by unfold dev; rw [if_pos (by decide)]
  have k := C98_space_partial (reset s1 {} 0).1 (f ++ Spec.newlines 1) 1 0 (by subst hs1; exact ⟨rfl, hl.fcb, hl.lpp, by show s.row + 1 ≤ 66; omega⟩) (by subst hs1; exact ⟨rfl, hs.addr, rfl, rfl, rfl, hs.busyFlag, hs.len⟩)
    (by subst hs1; exact hr) (by decide) (by subst hs1; show s.row + 1 + 1 ≤ 66; omega)
  obtain ⟨L, k1, -, -, -, -, k2, -⟩ := k
  refine ⟨_, _, _, L, e0, er, k1, ?_⟩
  rw [k2]
  subst hs1
  show s.evs + 1 = 1
  rw [he]

end Verif.Lpr
