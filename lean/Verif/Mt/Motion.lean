import Verif.Mt.Read
/-!
# The control commands of the 2415 over the channel

The channel gets channel end at once, the tape moves while the control is idle, and device end is presented by request in.
-/
namespace Verif.Mt
open Verif.Bus
open Verif.Card (Res)
open Verif.Tape (Tape St Fmt Z Item IsTE Rel)

/-- Nothing to report: a call of the bus function moves the scanner only. -/
structure Quiet (s : S) : Prop where
  st : s.st = .idle
  request : s.request = false
  stacked : s.stacked = false
  rdy : ∀ v, s.rdy v = false
  scan : s.tScan < 6

theorem Quiet.dev {s : S} (h : Quiet s) (bi : Nat) : dev s Bus.Spec.rest 0 bi = .ok ({ s with tScan := scanNext s.tScan }, Bus.Spec.rest, bi) := by
  unfold Mt.dev Bus.Spec.rest
  rw [if_neg (by simp)]
  simp only [h.st, idle, scan_quiet (h.rdy _)]
  simp [h.request, h.stacked, idleSel]

theorem Quiet.idles : ∀ (n : Nat) {s : S} (_ : Quiet s) (bi : Nat), ∃ k, k < 6 ∧ Spec.idles n ⟨s, Bus.Spec.rest, bi⟩ = .ok ⟨{ s with tScan := k }, Bus.Spec.rest, bi⟩ := by
  intro n
  induction n with
  | zero => intro s h bi; exact ⟨s.tScan, h.scan, rfl⟩
  | succ n ih =>
    intro s h bi
    obtain ⟨k, hk, e⟩ := ih (s := { s with tScan := scanNext s.tScan }) ⟨h.st, h.request, h.stacked, h.rdy, scanNext_lt h.scan⟩ bi
    exact ⟨k, hk, by rw [idles_step (h.dev bi), e]⟩

/-- The channel waits and the next event becomes due. -/
theorem attend_tick (w : Spec.World) {s : S} (h : Quiet s) (bi r : Nat) {e : Ev} (he : s.evs = [e]) :
    ∃ k, k < 6 ∧ ∀ s1, callback w.fuel w.junk { s with tScan := k, evs := [] } e = .ok s1 →
      Spec.attend w (r + 1) ⟨s, Bus.Spec.rest, bi⟩ = Spec.attend w r ⟨s1, Bus.Spec.rest, bi⟩ := by
  obtain ⟨k, hk, e1⟩ := h.idles (w.gap r + 1) bi
  refine ⟨k, hk, fun s1 hc => ?_⟩
  show (Spec.idles (w.gap r + 1) _).bind _ = _
  rw [e1, bk, if_neg (by simp [Bus.Spec.rest])]
  unfold Spec.tick
  have h' : ({ s with tScan := k } : S).evs = [e] := he
  rw [fire_one h', hc, bk, bk]

/-- The control commands. -/
def IsMotion (c : Nat) : Prop := c = 7 ∨ c = 0x1f ∨ c = 0x37 ∨ c = 0x3f ∨ c = 0x27 ∨ c = 0x2f

/-- The operation is over and the ready flag of its drive is up. -/
structure Done (s0 s : S) (u : Nat) (d : Drive) (t : Tape) (σ : Nat) : Prop where
  st : s.st = .idle
  selected : s.selected = false
  status : s.status = σ
  evs : s.evs = []
  over : s.cmdDone = true ∨ s.cmd = 0
  request : s.request = false
  stacked : s.stacked = false
  busyFlag : s.busyFlag = false
  rdy : ∀ v, s.rdy v = decide (v = u)
  curUnit : s.curUnit = u
  statUnit : s.statUnit = none
  scan : s.tScan < 6
  addr : s.addr = s0.addr
  rew : s.rew = s0.rew
  run : s.run = s0.run
  drives : s.drives = s0.drives.set u (some { d with t := t })

theorem Done.scan_to {s0 s : S} {u : Nat} {d : Drive} {t : Tape} {σ : Nat} (h : Done s0 s u d t σ) (k : Nat) (hk : k < 6) : Done s0 { s with tScan := k } u d t σ :=
  ⟨h.st, h.selected, h.status, h.evs, h.over, h.request, h.stacked, h.busyFlag, h.rdy, h.curUnit, h.statUnit, hk, h.addr, h.rew, h.run, h.drives⟩

/-- Request in is up for a unit. -/
def asking : Tags := { Bus.Spec.rest with reqIn := true }

section
variable {s0 s : S} {u c : Nat} {d : Drive} {t t1 : Tape} {σ : Nat} {de : Bool} {evs : List Ev} {cd : Bool} {hold : Bool} {bi : Nat}

theorem Going.quiet (h : Going s0 s u c d t .idle false σ de evs cd) : Quiet s := ⟨h.st, h.request, h.stacked, h.rdy, h.scan⟩

/-- Channel end is accepted, the control lets go of the bus. -/
theorem accept_motion (h : Going s0 s u c d t .status true 8 true evs false) (hc : c ≠ 0) (ha : s0.addr < 256) :
    ∃ s' bi', ((Bus.Spec.accept dev ⟨{ s with st := .statusAccept }, { opr := true, hld := hold, oprIn := true, staIn := true }, bi⟩ 0).bind fun L => (Spec.release L).bind fun L' => .ok (L, L')) =
        .ok (⟨s', { opr := true, hld := hold }, bi'⟩, ⟨{ s' with tScan := scanNext s'.tScan }, Bus.Spec.rest, bi'⟩) ∧ s'.chaining = false ∧ Going s0 s' u c d t .idle false 0 true evs false := by
  have g : Going s0 { s with st := .idle, chaining := false, status := 0, selected := false } u c d t .idle false 0 true evs false :=
    ⟨rfl, rfl, rfl, h.dataEnd, h.evs, h.cmdDone, h.request, h.stacked, h.busyFlag, h.cmd, h.dataRdy, h.se0, h.rdy, h.curUnit, h.statUnit, h.scan, h.addr, h.rew, h.run, h.drives⟩
  refine ⟨_, Bus.Spec.byte 8, ?_, rfl, g⟩
  have e1 : dev { s with st := .statusAccept } { opr := true, hld := hold, oprIn := true, staIn := true, srv := true } 0 bi =
      .ok ({ s with st := .statusWait, chaining := false, status := 0 }, { opr := true, hld := hold, oprIn := hold, srv := true }, Bus.Spec.byte 8) := by
    unfold dev
    rw [if_neg (by simp)]
    simp only [statusAccept, h.status, withPar_ok 8 (by decide), bk]
    simp [accepted, h.cmdDone, h.cmd, hc, h.dataEnd]
  have e2 : dev { s with st := .statusWait, chaining := false, status := 0 } { opr := true, hld := hold, oprIn := hold } 0 (Bus.Spec.byte 8) =
      .ok ({ s with st := .idle, chaining := false, status := 0, selected := false }, { opr := true, hld := hold }, Bus.Spec.byte 8) := by
    unfold dev
    rw [if_neg (by simp)]
    simp [statusWait, h.busyFlag]
  have e3 : Bus.Spec.accept dev ⟨{ s with st := .statusAccept }, { opr := true, hld := hold, oprIn := true, staIn := true }, bi⟩ 0 =
      .ok ⟨{ s with st := .idle, chaining := false, status := 0, selected := false }, { opr := true, hld := hold }, Bus.Spec.byte 8⟩ := by
    unfold Bus.Spec.accept
    rw [poll_ok (by exact e1), bk]
    exact poll_ok (by exact e2)
  rw [e3, bk]
  unfold Spec.release
  rw [poll_ok (f := fun t : Tags => { t with hld := false }) (by exact g.quiet.dev _), bk]

/-- One event of an operation in progress. -/
theorem motion_tick (w : Spec.World) (h : Going s0 s u c d t .idle false σ de evs cd) {e : Ev} (he : evs = [e]) (r : Nat) :
    ∃ s', Going s0 s' u c d t .idle false σ de [] cd ∧ s'.chaining = s.chaining ∧ ∀ s1, callback w.fuel w.junk s' e = .ok s1 →
      Spec.attend w (r + 1) ⟨s, Bus.Spec.rest, bi⟩ = Spec.attend w r ⟨s1, Bus.Spec.rest, bi⟩ := by
  subst he
  obtain ⟨k, hk, hh⟩ := attend_tick w h.quiet bi r h.evs
  exact ⟨{ s with tScan := k, evs := [] }, ⟨h.st, h.selected, h.status, h.dataEnd, rfl, h.cmdDone, h.request, h.stacked, h.busyFlag, h.cmd, h.dataRdy, h.se0, h.rdy, h.curUnit, h.statUnit, hk, h.addr, h.rew, h.run, h.drives⟩, rfl, hh⟩

/-- The end of the operation: device end is pending. -/
theorem motion_done (w : Spec.World) (h : Going s0 s u c d t .idle false σ de [.done u] false) (hc : c &&& 3 = 3) (r : Nat) :
    ∃ s1, Spec.attend w (r + 1) ⟨s, Bus.Spec.rest, bi⟩ = Spec.attend w r ⟨s1, Bus.Spec.rest, bi⟩ ∧ Done s0 s1 u d t (σ ||| 4) := by
  obtain ⟨s', g, -, e⟩ := motion_tick (bi := bi) w h rfl r
  refine ⟨doneCb s' u, e _ rfl, g.st, g.selected, ?_, g.evs, .inl rfl, g.request, g.stacked, g.busyFlag, ?_, g.curUnit, g.statUnit, g.scan, g.addr, g.rew, g.run, g.drives⟩
  · show s'.status ||| sDevEnd = _
    rw [g.status]; rfl
  · intro v
    show (if s'.cmd &&& 3 = 3 then upd s'.rdy u true else s'.rdy) v = _
    rw [g.cmd, if_pos hc]
    unfold upd
    by_cases q : v = u
    · simp [q]
    · simp [q, g.rdy]

/-- How far the scanner is from a unit. -/
def away (k u : Nat) : Nat := (u + 6 - k) % 6

theorem away_next {k u : Nat} (hk : k < 6) (hu : u < 6) (h : k ≠ u) : away k u = away (scanNext k) u + 1 := by
  unfold away scanNext; split <;> omega

theorem Done.dev_far (h : Done s0 s u d t σ) (hu : s.tScan ≠ u) : dev s Bus.Spec.rest 0 bi = .ok ({ s with tScan := scanNext s.tScan }, Bus.Spec.rest, bi) := by
  unfold dev Bus.Spec.rest
  rw [if_neg (by simp)]
  simp only [h.st, idle, scan_quiet (s := s) (by rw [h.rdy]; simp [hu])]
  simp [h.request, h.stacked, idleSel]

theorem scan_found (h : s.rdy s.tScan = true) : scan s = { s with request := true } := by unfold scan; rw [h]; rfl

theorem Done.dev_found (h : Done s0 s u d t σ) (hu : s.tScan = u) {r r' : Bool} {t : Tags} (ht : t = { Bus.Spec.rest with reqIn := r }) :
    dev { s with request := r' } t 0 bi = .ok ({ s with request := true }, asking, bi) := by
  subst ht
  have hr : s.rdy s.tScan = true := by rw [h.rdy, hu]; simp
  unfold dev Bus.Spec.rest asking Bus.Spec.rest
  rw [if_neg (by simp)]
  have hsc := scan_found (s := { s with request := r' }) hr
  simp only [h.st] at hsc ⊢
  simp only [idle, hsc]
  simp [idleSel]

theorem Done.idles (hu : u < 6) (bi : Nat) : ∀ (n : Nat) {s : S} (_ : Done s0 s u d t σ),
    (n ≤ away s.tScan u ∧ ∃ k, k < 6 ∧ away k u + n = away s.tScan u ∧ Spec.idles n ⟨s, Bus.Spec.rest, bi⟩ = .ok ⟨{ s with tScan := k }, Bus.Spec.rest, bi⟩) ∨
    Spec.idles n ⟨s, Bus.Spec.rest, bi⟩ = .ok ⟨{ s with tScan := u, request := true }, asking, bi⟩ := by
  intro n
  induction n with
  | zero => intro s h; exact .inl ⟨Nat.zero_le _, s.tScan, h.scan, rfl, rfl⟩
  | succ n ih =>
    intro s h
    by_cases q : s.tScan = u
    · right
      have e := h.dev_found (bi := bi) q (r := false) (r' := false) rfl
      have e0 : ({ s with request := false } : S) = s := by rw [← h.request]
      have e1 : ({ s with tScan := u, request := true } : S) = { s with request := true } := by rw [← q]
      rw [e0] at e
      have e' : dev s Bus.Spec.rest 0 bi = .ok ({ s with request := true }, asking, bi) := e
      rw [idles_step e', e1]
      exact idles_fix (h.dev_found q (r := true) (r' := true) rfl) n
    · have a := away_next h.scan hu q
      have e := h.dev_far (bi := bi) q
      rcases ih (h.scan_to _ (scanNext_lt h.scan)) with ⟨h1, k, hk, h2, h3⟩ | h1
      · have h2' : away k u + n = away (scanNext s.tScan) u := h2
        have h1' : n ≤ away (scanNext s.tScan) u := h1
        exact .inl ⟨by omega, k, hk, by omega, by rw [idles_step e, h3]⟩
      · exact .inr (by rw [idles_step e, h1])

/-- The scanner finds the drive. -/
theorem Done.attend (w : Spec.World) (hu : u < 6) : ∀ (r : Nat) {s : S} (_ : Done s0 s u d t σ), away s.tScan u < r →
    ∃ s2, Spec.attend w r ⟨s, Bus.Spec.rest, bi⟩ = .ok ⟨{ s2 with request := true }, asking, bi⟩ ∧ s2.tScan = u ∧ Done s0 s2 u d t σ := by
  intro r
  induction r with
  | zero => intro s h q; omega
  | succ r ih =>
    intro s h q
    show ∃ s2, (Spec.idles (w.gap r + 1) _).bind _ = _ ∧ _
    rcases h.idles hu bi (w.gap r + 1) with ⟨-, k, hk, h2, h3⟩ | h3
    · have g := h.scan_to k hk
      obtain ⟨s2, e, k1, k2⟩ := ih g (by show away k u < r; omega)
      refine ⟨s2, ?_, k1, k2⟩
      have ht : Spec.tick w ⟨{ s with tScan := k }, Bus.Spec.rest, bi⟩ = .ok ⟨{ s with tScan := k }, Bus.Spec.rest, bi⟩ := by
        unfold Spec.tick fire
        simp only [h.evs]
        rfl
      rw [h3, bk, if_neg (by simp [Bus.Spec.rest]), ht, bk, e]
    · exact ⟨{ s with tScan := u }, by rw [h3, bk, if_pos (by rfl)], rfl, h.scan_to u hu⟩

/-- The channel answers. -/
theorem Done.service (w : Spec.World) (hu : u < 6) (h : Done s0 s u d t σ) (hs : s.tScan = u) (h0 : σ ≠ 0) (hσ : σ < 256) (ha : s0.addr < 256) :
    ∃ s' L bi', Spec.service w ⟨{ s with request := true }, asking, bi⟩ = .ok ((Bus.Spec.byte ((s0.addr &&& 0xf8) ||| u), Bus.Spec.byte σ), L) ∧
      Spec.release L = .ok ⟨s', Bus.Spec.rest, bi'⟩ ∧ After s0 s' u d t := by
  have hr : AtRest { s with request := false, st := .idle, selected := false, chaining := false, status := 0, stacked := false, dataEnd := false, cmdDone := false, cmd := 0, busyFlag := false, rdy := upd s.rdy u false } := by
    refine ⟨rfl, rfl, rfl, rfl, rfl, rfl, ?_, h.evs, h.scan, by show s.addr < 256; rw [h.addr]; exact ha, .inl h.statUnit⟩
    intro v
    show upd s.rdy u false v = false
    unfold upd
    by_cases q : v = u
    · simp [q]
    · simp [q, h.rdy]
  refine ⟨_, ⟨_, { opr := true, hld := w.hold }, Bus.Spec.byte σ⟩, _, ?_, release_ok hr, hr.scan_to _ (scanNext_lt h.scan), h.addr, h.rew, h.run, h.drives⟩
  have hry : s.rdy s.tScan = true := by rw [h.rdy, hs]; simp
  unfold Spec.service asking Bus.Spec.rest
  have e1 : dev { s with request := true } { opr := true, reqIn := true, sel := true, hld := w.hold } 0 bi =
      .ok ({ s with request := true, selected := true, st := .initSel }, { opr := true, hld := w.hold, oprIn := true }, bi) := by
    unfold dev
    rw [if_neg (by simp)]
    have hsc := scan_found (s := { s with request := true }) hry
    simp only [h.st] at hsc ⊢
    simp only [idle, hsc]
    simp [idleSel, polled, hry]
  rw [poll_ok (by exact e1), bk]
  have hb : bytePar ((s0.addr &&& 0xf8) ||| u) = Bus.Spec.byte ((s0.addr &&& 0xf8) ||| u) := by
    have := bytePar_eq ((s0.addr &&& 0xf8) ||| u)
    rwa [Nat.mod_eq_of_lt (or8 (Nat.lt_of_le_of_lt Nat.and_le_left ha) (by omega))] at this
  have e2 : dev { s with request := true, selected := true, st := .initSel } { opr := true, hld := w.hold, oprIn := true } 0 bi =
      .ok ({ s with request := true, selected := true, st := .command }, { opr := true, hld := w.hold, oprIn := true, adrIn := true }, Bus.Spec.byte ((s0.addr &&& 0xf8) ||| u)) := by
    unfold dev
    rw [if_neg (by simp)]
    simp [initSel, h.addr, h.curUnit, hb]
  rw [poll_ok (f := id) (by exact e2), bk]
  have e3 : dev { s with request := true, selected := true, st := .command } { opr := true, hld := w.hold, oprIn := true, adrIn := true, cmd := true } (Bus.Spec.byte 0) (Bus.Spec.byte ((s0.addr &&& 0xf8) ||| u)) =
      .ok ({ s with request := false, selected := true, st := .status }, { opr := true, hld := w.hold, oprIn := true, cmd := true }, bytePar s.addr) := by
    unfold dev
    rw [if_neg (by simp)]
    simp only [command, command1, if_true, parBad_byte 0 (by decide)]
    rw [if_neg (by decide), if_neg (by rw [h.busyFlag]; decide), if_neg (by rintro ⟨-, q⟩; exact h0 (h.status.symm.trans q))]
  rw [poll_ok (by exact e3), bk]
  have hw : withPar ({ s with request := false, selected := true, st := .status } : S).status = .ok (Bus.Spec.byte σ) := by
    show withPar s.status = _
    rw [h.status]; exact withPar_ok σ hσ
  have e4 : dev { s with request := false, selected := true, st := .status } { opr := true, hld := w.hold, oprIn := true } 0 (bytePar s.addr) =
      .ok ({ s with request := false, selected := true, st := .statusAccept }, { opr := true, hld := w.hold, oprIn := true, staIn := true }, Bus.Spec.byte σ) := by
    unfold dev
    rw [if_neg (by simp)]
    show Mt.status _ _ = _
    unfold Mt.status
    rw [hw, bk]
  rw [poll_ok (by exact e4), bk]
  unfold Bus.Spec.accept
  have hw2 : withPar ({ s with request := false, selected := true, st := .statusAccept } : S).status = .ok (Bus.Spec.byte σ) := hw
  have e5 : dev { s with request := false, selected := true, st := .statusAccept } { opr := true, hld := w.hold, oprIn := true, staIn := true, srv := true } 0 (Bus.Spec.byte σ) =
      .ok ({ s with request := false, st := .statusWait, selected := true, chaining := false, status := 0, stacked := false, dataEnd := false, cmdDone := false, cmd := 0, busyFlag := false, rdy := upd s.rdy u false },
        { opr := true, hld := w.hold, srv := true }, Bus.Spec.byte σ) := by
    unfold dev
    rw [if_neg (by simp)]
    show statusAccept _ _ = _
    unfold statusAccept
    rw [hw2, bk]
    simp [accepted, h.over, h.curUnit]
  rw [poll_ok (by exact e5), bk]
  have e6 : dev { s with request := false, st := .statusWait, selected := true, chaining := false, status := 0, stacked := false, dataEnd := false, cmdDone := false, cmd := 0, busyFlag := false, rdy := upd s.rdy u false }
      { opr := true, hld := w.hold } 0 (Bus.Spec.byte σ) =
      .ok ({ s with request := false, st := .idle, selected := false, chaining := false, status := 0, stacked := false, dataEnd := false, cmdDone := false, cmd := 0, busyFlag := false, rdy := upd s.rdy u false },
        { opr := true, hld := w.hold }, Bus.Spec.byte σ) := by
    unfold dev
    rw [if_neg (by simp)]
    simp [statusWait]
  rw [poll_ok (by exact e6), bk]

/-- A whole control command. -/
theorem perform_motion' (w : Spec.World) (hc8 : c < 256) (hc0 : c ≠ 0) (h : AtRest s) (hr : Ready s u d) {s1 : S}
    (e1 : deviceCmd { s with tScan := scanNext s.tScan, curUnit := u, selected := true, st := .status } c = .ok s1)
    (g1 : Going s s1 u c d t1 .status true 8 true [.tape u] false) {P : Tape → Prop} {σ : Nat} (h0 : σ ≠ 0) (hσ : σ < 256) (want : Nat)
    (hatt : ∀ (s' : S) (bi' : Nat), s'.chaining = false → Going s s' u c d t1 .idle false 0 true [.tape u] false →
      ∃ s2 r bi2 t3, Spec.attend w w.rounds ⟨s', Bus.Spec.rest, bi'⟩ = Spec.attend w (r + 6) ⟨s2, Bus.Spec.rest, bi2⟩ ∧ Done s s2 u d t3 σ ∧ P t3) :
    ∃ s' bi' t3, Spec.perform w ⟨s, Bus.Spec.rest, bi⟩ u c want =
        .ok ({ initial := Bus.Spec.byte 8, ending := some (Bus.Spec.byte σ), under := some (Bus.Spec.byte ((s.addr &&& 0xf8) ||| u)) }, ⟨s', Bus.Spec.rest, bi'⟩) ∧ After s s' u d t3 ∧ P t3 := by
  have e2 := select_ok h.free u c (by have := hr.lt; omega) hc8 w.hold bi e1 g1.st (by rw [g1.status]; decide)
  have hb : Bus.Spec.byte s1.status = Bus.Spec.byte 8 := by rw [g1.status]
  rw [hb] at e2
  obtain ⟨s2, b2, e3, hch, g2⟩ := accept_motion (hold := w.hold) (bi := Bus.Spec.byte 8) g1 hc0 h.addr
  obtain ⟨L, e4, e5⟩ := bind_ok' e3
  obtain ⟨L', e6, e7⟩ := bind_ok' e5
  simp only [Res.ok.injEq, Prod.mk.injEq] at e7
  obtain ⟨rfl, rfl⟩ := e7
  obtain ⟨s3, r, b3, t3, e8, g3, hP⟩ := hatt { s2 with tScan := scanNext s2.tScan } b2 hch (g2.scan_to _ (scanNext_lt g2.scan))
  obtain ⟨s4, e9, k1, g4⟩ := g3.attend (bi := b3) w hr.lt (r + 6) (by unfold away; omega)
  obtain ⟨s5, L5, b5, e10, e11, a⟩ := g4.service (bi := b3) w hr.lt k1 h0 hσ h.addr
  refine ⟨s5, b5, t3, ?_, a, hP⟩
  unfold Spec.perform
  rw [e2, bk, e4, bk, if_neg (by simp), e6, bk, if_neg (by show ¬ tst (Bus.Spec.byte 8) sDevEnd = true; decide), e8, e9, bk, e10, bk, e11, bk]

theorem perform_motion (w : Spec.World) (hc8 : c < 256) (hc0 : c ≠ 0) (h : AtRest s) (hr : Ready s u d) {s1 : S}
    (e1 : deviceCmd { s with tScan := scanNext s.tScan, curUnit := u, selected := true, st := .status } c = .ok s1)
    (g1 : Going s s1 u c d t1 .status true 8 true [.tape u] false) {t3 : Tape} {σ : Nat} (h0 : σ ≠ 0) (hσ : σ < 256) (want : Nat)
    (hatt : ∀ (s' : S) (bi' : Nat), s'.chaining = false → Going s s' u c d t1 .idle false 0 true [.tape u] false →
      ∃ s2 r bi2, Spec.attend w w.rounds ⟨s', Bus.Spec.rest, bi'⟩ = Spec.attend w (r + 6) ⟨s2, Bus.Spec.rest, bi2⟩ ∧ Done s s2 u d t3 σ) :
    ∃ s' bi', Spec.perform w ⟨s, Bus.Spec.rest, bi⟩ u c want =
        .ok ({ initial := Bus.Spec.byte 8, ending := some (Bus.Spec.byte σ), under := some (Bus.Spec.byte ((s.addr &&& 0xf8) ||| u)) }, ⟨s', Bus.Spec.rest, bi'⟩) ∧ After s s' u d t3 := by
  obtain ⟨s', bi', t', e, a, rfl⟩ := perform_motion' (bi := bi) (P := (· = t3)) w hc8 hc0 h hr e1 g1 h0 hσ want (fun s' bi' hc g => by
    obtain ⟨s2, r, b2, a1, a2⟩ := hatt s' bi' hc g
    exact ⟨s2, r, b2, t3, a1, a2, rfl⟩)
  exact ⟨s', bi', e, a⟩

end

end Verif.Mt
