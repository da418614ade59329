import Verif.Mt.Bus
/-!
# Channel programs on the 2415: what is seen, and what should be (C49, C102–C109)
-/
namespace Verif.Mt
open Verif.Bus
open Verif.Card (Res)
open Verif.Tape (Tape St Fmt Z Item IsTE Rel)

namespace Spec

/-- Drive `u` was configured as a nine track drive with a file that holds the records and marks `items`, in SIMH or E11
format, and possibly further bytes. -/
def Mounted (drives : List (Option Drive)) (u : Nat) (ring : Bool) (items : List Item) : Prop :=
  ∃ f rest den, IsTE f ∧ (∀ i ∈ items, Tape.Fits f i) ∧ drives[u]? = some (some (mount (newDrive true) (Tape.images f items ++ rest) f ring den))

/-- A command is started: selection, initial status, which is returned, and release. -/
def start (w : World) (L : Link) (u c : Nat) : Res (Nat × Link) :=
  (Bus.Spec.initialSelection dev L ((L.s.addr &&& 0xf8) ||| u) c w.hold).bind fun L0 =>
  (Bus.Spec.accept dev L0 0).bind fun L1 => (release L1).bind fun L => .ok (L0.bi, L)

/-- System reset: all lines of the channel down, then operational out up again. -/
def systemReset (L : Link) : Res Link :=
  (Bus.Spec.poll dev L (fun t => { t with sel := false, adr := false, cmd := false, srv := false, hld := false, sup := false, opr := false }) 0).bind fun L =>
  .ok ⟨L.s, { L.t with opr := true }, L.bi⟩

end Spec

theorem create_rest (addr : Nat) (ha : addr < 256) (drives : List (Option Drive)) : AtRest (create addr drives) :=
  ⟨rfl, rfl, rfl, rfl, rfl, rfl, fun _ => rfl, rfl, by show 0 < 6; decide, ha, .inr ⟨rfl, rfl, rfl⟩⟩

theorem mounted_holds {addr : Nat} {drives : List (Option Drive)} (hc : Spec.Config drives) {u : Nat} {ring : Bool} {items : List Item} (h : Spec.Mounted drives u ring items) :
    Spec.Holds (create addr drives) u (ring, ⟨[], items, false⟩) := by
  obtain ⟨f, rest, den, hf, hfit, hd⟩ := h
  have hl : u < 6 := by
    have := (List.getElem?_eq_some_iff.1 hd).1
    rw [hc.1] at this; exact this
  have k := Tape.attach_rel (newDrive true).t f ring den items rest List.length_replicate hfit
  exact ⟨_, f, rest, _, ⟨hl, hd, rfl, rfl, rfl, rfl, rfl⟩, hf, k, rfl, rfl, rfl, rfl⟩

/-- **C103** for channel programs of reads, backward reads, spacing, tape marks and rewinds on any of the drives, in any order,
with any timing: the channel sees exactly what is on the tapes. -/
theorem C103_programs_partial (addr : Nat) (ha : addr < 256) (drives : List (Option Drive)) (hc : Spec.Config drives) (ring : Nat → Bool) (tape : Nat → Option (List Item))
    (hm : ∀ u items, tape u = some items → Spec.Mounted drives u (ring u) items) (prog : List (Nat × Spec.Cmd))
    (hv : Spec.Valid (fun u => (tape u).map fun items => (ring u, ⟨[], items, false⟩)) prog) (bi : Nat) :
    Spec.Sees (fun _ => True) prog ⟨create addr drives, Bus.Spec.rest, bi⟩ (Spec.results addr (fun u => (tape u).map fun items => (ring u, ⟨[], items, false⟩)) prog) := by
  have h := sees prog (s := create addr drives) (R := fun u => (tape u).map fun items => (ring u, ⟨[], items, false⟩)) bi (create_rest addr ha drives) (by
    intro u q hq
    cases e : tape u with
    | none => rw [e] at hq; cases hq
    | some items =>
      rw [e] at hq
      cases hq
      exact mounted_holds hc (hm u items e)) hv
  revert h
  generalize hR : (Spec.results (create addr drives).addr (fun u => (tape u).map fun items => (ring u, (⟨[], items, false⟩ : Spec.Reel))) prog) = rs
  have hR' : Spec.results addr (fun u => (tape u).map fun items => (ring u, (⟨[], items, false⟩ : Spec.Reel))) prog = rs := hR
  rw [hR']
  clear hR hR' hv
  generalize (⟨create addr drives, Bus.Spec.rest, bi⟩ : Spec.Link) = L
  generalize (fun s' => AtRest s' ∧ ∀ u q, prog.foldl (fun R (k : Nat × Spec.Cmd) => Spec.after R k.1 k.2) _ u = some q → Spec.Holds s' u q) = P
  intro h
  have mono : ∀ (l : List (Nat × Spec.Cmd)) (L : Spec.Link) (rs : List Spec.Result), Spec.Sees P l L rs → Spec.Sees (fun _ => True) l L rs := by
    intro l
    induction l with
    | nil => rintro L rs ⟨h, -⟩; exact ⟨h, trivial⟩
    | cons k l ih =>
      rintro L rs ⟨n, h⟩
      refine ⟨n, fun w hw => ?_⟩
      obtain ⟨r, L', rs', h1, h2, h3⟩ := h w hw
      exact ⟨r, L', rs', h1, h2, ih _ _ h3⟩
  exact mono _ _ _ h

/-! ## C102: writing -/

/-- The start of a record and a tape mark are the same four bytes. -/
theorem start_is_mark {t t1 : Tape} (hf : t.fmt = .tap ∨ t.fmt = .e11) (h : Tape.writeMark t = .ok (.ok, t1)) :
    ∃ t2, Tape.writeStart t = .ok (.ok, t2) ∧ t2.b = t1.b ∧ t2.fmt = t1.fmt ∧ t2.ring = t1.ring := by
  unfold Tape.writeMark at h
  unfold Tape.writeStart
  split at h
  · cases h
  · split at h
    · cases h
    · rename_i h1 h2
      rw [if_neg h1, if_neg h2]
      dsimp only at h ⊢
      rw [if_pos hf] at h ⊢
      obtain ⟨⟨s, b⟩, e1, e2⟩ := Tape.bind_eq_ok h
      rw [e1]
      show ∃ t2, (if s = St.ok then _ else _) = _ ∧ _
      dsimp only at e2
      split at e2
      · rename_i hs
        simp only [Tape.Res.ok.injEq, Prod.mk.injEq] at e2
        obtain ⟨-, rfl⟩ := e2
        rw [if_pos hs]
        exact ⟨_, rfl, rfl, rfl, rfl⟩
      · rename_i hs
        simp only [Tape.Res.ok.injEq, Prod.mk.injEq] at e2
        exact absurd e2.1 hs

theorem Rel.congr {f : Fmt} {rg : Bool} {rest : List Nat} {t t' : Tape} {z : Z} (h : Rel f rg rest t z) (h1 : t'.b = t.b) (h2 : t'.fmt = t.fmt) (h3 : t'.ring = t.ring) : Rel f rg rest t' z := by
  obtain ⟨⟨a1, a2, a3, a4⟩, b1, b2, b3, b4, b5, b6, b7, b8⟩ := h
  refine ⟨⟨?_, ?_, ?_, ?_⟩, ?_, ?_, ?_, ?_, ?_, ?_, ?_, ?_⟩ <;> (try rw [h1]) <;> (try rw [h2]) <;> (try rw [h3]) <;> assumption

/-- **C102**, violated: a write command for a reel with the ring moves no data.  The channel gets unit check at once, and the
rest of the reel is replaced by a tape mark. -/
theorem C102_violated_write (s : S) (h : AtRest s) (u : Nat) (r : Spec.Reel) (hh : Spec.Holds s u (true, r)) (hr : r.forward = false) (c : Nat) (hc : c < 256) (hw : c % 4 = 1)
    (w : Spec.World) (want bi : Nat) :
    ∃ s' bi', Spec.perform w ⟨s, Bus.Spec.rest, bi⟩ u c want = .ok ({ initial := Bus.Spec.byte 0x0e }, ⟨s', Bus.Spec.rest, bi'⟩) ∧
      Spec.Holds s' u (true, ⟨.mark :: r.before, [], false⟩) := by
  obtain ⟨d, f, rest, z, hrd, hf, k, hb, ha, he, hj⟩ := hh
  obtain ⟨t1, rest', e1, k1⟩ := put_mark hf k (by rw [hj]; exact hr)
  have hft : IsTE d.t.fmt := by rw [k.drive.fmt]; exact hf
  obtain ⟨t2, e2, q1, q2, q3⟩ := start_is_mark hft e1
  obtain ⟨s', bi', e3, a, -, -⟩ := write_lost w hw hc h hrd k.drive.ring e2 (by decide) (by decide) want bi
  obtain ⟨a1, -⟩ := a.holds hrd hf (Rel.congr k1 q1 q2 q3) he
  refine ⟨s', bi', e3, ?_⟩
  rw [← hb]
  exact a1

/-! ## C108: sense, and a write without the ring -/

/-- **C108**: sense presents the six sense bytes of the unit, as many as the channel wants, and then channel end and device
end, and changes nothing. -/
theorem C108_sense (s : S) (h : AtRest s) (u : Nat) (hu : u < 6) (d : Option Drive) (hd : s.drives[u]? = some d) (h0 : s.se0 < 256) (h3 : s.se3 < 256)
    (w : Spec.World) (hr : 20 ≤ w.rounds) (want bi : Nat) :
    ∃ s' bi', Spec.perform w ⟨s, Bus.Spec.rest, bi⟩ u 4 want =
        .ok ({ initial := Bus.Spec.byte 0, data := ((Spec.senseBytes s u d).take want).map Bus.Spec.byte, ending := some (Bus.Spec.byte 0x0c) }, ⟨s', Bus.Spec.rest, bi'⟩) ∧
      AtRest s' ∧ s'.drives = s.drives := by
  obtain ⟨s', bi', e, k1, k2⟩ := perform_sense w h hu hd h0 h3 hr want bi
  exact ⟨s', bi', e, k1, k2.drives⟩

/-- **C48**: a write, erase gap or tape mark command for a reel without the ring is answered with unit check, the reel stays as it is, and sense then
shows command reject, and that the unit is there, at load point or not, and protected. -/
theorem C48_write_rejected (s : S) (h : AtRest s) (u : Nat) (r : Spec.Reel) (hh : Spec.Holds s u (false, r)) (c : Nat) (hc : c < 256) (hw : c % 4 = 1 ∨ c = 0x17 ∨ c = 0x1f)
    (w w' : Spec.World) (hr : 20 ≤ w'.rounds) (want bi : Nat) :
    ∃ s' bi' s2 bi2 load, Spec.perform w ⟨s, Bus.Spec.rest, bi⟩ u c want = .ok ({ initial := Bus.Spec.byte 0x0e }, ⟨s', Bus.Spec.rest, bi'⟩) ∧ s'.drives = s.drives ∧
      Spec.perform w' ⟨s', Bus.Spec.rest, bi'⟩ u 4 6 =
        .ok ({ initial := Bus.Spec.byte 0, data := [0x80, if load then 0x4a else 0x42, 3, 0, 0, 0].map Bus.Spec.byte, ending := some (Bus.Spec.byte 0x0c) }, ⟨s2, Bus.Spec.rest, bi2⟩) ∧
      (load = true → r.before = []) ∧ Spec.Holds s2 u (false, r) := by
  obtain ⟨d, f, rest, z, hrd, hf, k, hb, ha, he, hj⟩ := hh
  obtain ⟨s', bi', e1, k1, k2, k3, k4, k5, k6, k7⟩ := write_protected w hw hc h hrd k.drive.ring want bi
  obtain ⟨s2, bi2, e2, m1, m2⟩ := perform_sense w' k1 hrd.lt (d := some d) (by rw [k5]; exact hrd.at') (by rw [k6]; decide) (by rw [k7]; decide) hr 6 bi'
  refine ⟨s', bi', s2, bi2, d.t.b.bot, e1, k5, ?_, ?_, ⟨d, f, rest, z, ⟨hrd.lt, by rw [m2.drives, k5]; exact hrd.at', hrd.opened, hrd.online, hrd.nine, by rw [m2.rew, k3]; exact hrd.rew, by rw [m2.run, k4]; exact hrd.run⟩, hf, k, hb, ha, he, hj⟩⟩
  · rw [e2]
    have hs : Spec.senseBytes s' u (some d) = [0x80, if d.t.b.bot then 0x4a else 0x42, 3, 0, 0, 0] := by
      unfold Spec.senseBytes sense1 Mt.ready
      simp only [k6, k7, hrd.opened, hrd.online, k3, k4, hrd.rew, hrd.run, k.drive.ring, hrd.nine, Tape.atLoadpt]
      by_cases q : d.t.b.bot = true
      · simp only [q]; rfl
      · simp only [q]; rfl
    rw [hs]
    rfl
  · intro q
    rw [← hb]
    exact k.bot q

/-! ## C109: a drive that is not ready -/

/-- **C109**, violated: a drive with no tape, or not started, answers a read, write or control command with busy and device end;
intervention required is never reported. -/
theorem C109_violated_not_ready (s : S) (h : AtRest s) (h0 : s.se0 = 0) (u : Nat) (hu : u < 6) (d : Drive) (hd : s.drives[u]? = some (some d)) (hn : ready d = false) (c : Nat) (hc : c < 256)
    (hcm : c % 4 = 1 ∨ c % 4 = 2 ∨ c % 8 = 7 ∨ c % 16 = 12) (w : Spec.World) (want bi : Nat) :
    ∃ s' bi', Spec.perform w ⟨s, Bus.Spec.rest, bi⟩ u c want = .ok ({ initial := Bus.Spec.byte 0x14 }, ⟨s', Bus.Spec.rest, bi'⟩) ∧ AtRest s' ∧ s'.drives = s.drives ∧ s'.se0 = 0 := by
  have hs1 : sense1 { s with tScan := scanNext s.tScan, curUnit := u, selected := true, st := .status } (some d) = eTub := by
    unfold sense1; simp only [hn]; rfl
  have e : deviceCmd { s with tScan := scanNext s.tScan, curUnit := u, selected := true, st := .status } c =
      .ok { cmdPrep { s with tScan := scanNext s.tScan, curUnit := u, selected := true, st := .status } (some d) c with status := 0x14 } := by
    unfold deviceCmd
    rw [if_neg (by
      rintro ⟨q, -, q'⟩
      rcases h.pend with p | ⟨p1, p2, p3⟩
      · rw [p] at q; cases q
      · rw [p1, p2, p3] at q'; revert q'; decide)]
    simp only [hd]
    have hp : (cmdPrep { s with tScan := scanNext s.tScan, curUnit := u, selected := true, st := .status } (some d) c).cmd = c := rfl
    have hse : (cmdPrep { s with tScan := scanNext s.tScan, curUnit := u, selected := true, st := .status } (some d) c).se1 = eTub := hs1
    have hs0 : (cmdPrep { s with tScan := scanNext s.tScan, curUnit := u, selected := true, st := .status } (some d) c).se0 = 0 := h0
    have hcd : (cmdPrep { s with tScan := scanNext s.tScan, curUnit := u, selected := true, st := .status } (some d) c).cmdDone = true := rfl
    have hde : (cmdPrep { s with tScan := scanNext s.tScan, curUnit := u, selected := true, st := .status } (some d) c).dataEnd = false := rfl
    generalize cmdPrep { s with tScan := scanNext s.tScan, curUnit := u, selected := true, st := .status } (some d) c = p at hp hse hs0 hcd hde
    have htail : cmdTail { p with status := sBusy } = { p with status := 0x14 } := by
      unfold cmdTail
      rw [if_neg (by
        rintro ⟨-, q | q⟩
        · exact q (by show p.se0 &&& 0xfd = 0; rw [hs0]; rfl)
        · revert q; show ¬ tst p.se1 1 = true; rw [hse]; decide)]
      simp only [hde, hcd]
      rfl
    have ht : tst p.se1 eTub = true := by rw [hse]; decide
    have w1 : cmdWrite p = .ok { p with status := sBusy } := if_pos ht
    have w2 : cmdRead p = .ok { p with status := sBusy } := if_pos ht
    have w3 : cmdReadBack p = .ok { p with status := sBusy } := if_pos ht
    have w4 : cmdMotion p = .ok { p with status := sBusy } := if_pos ht
    unfold cmdSwitch
    rw [if_neg (by rw [hp]; omega), w1, w2, w3, w4, bk, htail]
    split
    · rfl
    · split
      · rfl
      · split
        · rfl
        · rw [if_neg (by rw [hp]; omega), if_neg (by rw [hp]; omega), if_pos (by rw [hp]; omega)]
  obtain ⟨s', bi', k1, k2, k3⟩ := perform_now (σ := 0x14) w h (by omega) hc e rfl
    (by
      refine ⟨rfl, h.evs, rfl, h.request, h.busyFlag, ?_, rfl, scanNext_lt h.scan, h.addr⟩
      intro v
      show upd s.rdy u false v = false
      unfold upd
      split
      · rfl
      · exact h.rdy v) (by decide) (by decide) want bi
  exact ⟨s', bi', k1, k2, k3.drives, by rw [k3.se0]; exact h0⟩

/-! ## C49: units that are not there -/

theorem select_oob {s : S} (h : Free s) (u c : Nat) (hu : u < 8) (hc : c < 256) (hold : Bool) (bi : Nat)
    (e : deviceCmd { s with tScan := scanNext s.tScan, curUnit := u, selected := true, st := .status } c = .oob) :
    Bus.Spec.initialSelection dev ⟨s, Bus.Spec.rest, bi⟩ ((s.addr &&& 0xf8) ||| u) c hold = .oob := by
  obtain ⟨a1, a2, a3⟩ := unit_addr s.addr u h.addr hu
  unfold Bus.Spec.initialSelection Bus.Spec.rest
  have e1 : dev s { opr := true, adr := true, sel := true, hld := hold } (Bus.Spec.byte ((s.addr &&& 0xf8) ||| u)) bi =
      .ok ({ s with tScan := scanNext s.tScan, curUnit := u, selected := true, st := .initSel }, { opr := true, adr := true, hld := hold, oprIn := true }, bytePar ((s.addr &&& 0xf8) ||| u)) := by
    unfold dev
    rw [if_neg (by simp)]
    simp only [h.st, idle, scan_quiet (h.rdy _)]
    simp [h.request, h.stacked, idleSel, a1, addressed, a2, a3, h.busyFlag, anyRdy, h.rdy]
  rw [poll_ok (by exact e1), bk]
  have e2 : dev { s with tScan := scanNext s.tScan, curUnit := u, selected := true, st := .initSel } { opr := true, hld := hold, oprIn := true } (Bus.Spec.byte ((s.addr &&& 0xf8) ||| u)) (bytePar ((s.addr &&& 0xf8) ||| u)) =
      .ok ({ s with tScan := scanNext s.tScan, curUnit := u, selected := true, st := .command }, { opr := true, hld := hold, oprIn := true, adrIn := true }, bytePar ((s.addr &&& 0xf8) ||| u)) := by
    unfold dev
    rw [if_neg (by simp)]
    simp [initSel]
  rw [poll_ok (by exact e2), bk]
  have e3 : dev { s with tScan := scanNext s.tScan, curUnit := u, selected := true, st := .command } { opr := true, hld := hold, oprIn := true, adrIn := true, cmd := true } (Bus.Spec.byte c) (bytePar ((s.addr &&& 0xf8) ||| u)) = .oob := by
    unfold dev
    rw [if_neg (by simp)]
    simp only [command, command1, if_true, parBad_byte c hc, byte_mod c hc]
    rw [if_neg (by decide), if_neg (by rw [h.busyFlag]; decide), if_pos ⟨h.stacked, h.status⟩]
    have : ({ s with tScan := scanNext s.tScan, curUnit := u, selected := true, st := .status, request := false } : S) =
      { s with tScan := scanNext s.tScan, curUnit := u, selected := true, st := .status } := by rw [← h.request]
    rw [this, e]
    rfl
  unfold Bus.Spec.poll
  dsimp only
  rw [e3]
  rfl

/-- **C49**, violated: any command for unit 6 or 7 of the control leaves the table of drives. -/
theorem C49_violated_unit67 (addr : Nat) (ha : addr < 256) (drives : List (Option Drive)) (hl : drives.length = 6) (u : Nat) (hu : u = 6 ∨ u = 7) (c : Nat) (hc : c < 256) (hold : Bool) (bi : Nat) :
    Bus.Spec.initialSelection dev ⟨create addr drives, Bus.Spec.rest, bi⟩ ((addr &&& 0xf8) ||| u) c hold = .oob := by
  refine select_oob (create_rest addr ha drives).free u c (by omega) hc hold bi ?_
  unfold deviceCmd
  rw [if_neg (by
    rintro ⟨q, -⟩
    have : some 0 = some u := q
    simp only [Option.some.injEq] at this
    omega)]
  show (match drives[u]? with | none => Res.oob | some d => _) = _
  rw [List.getElem?_eq_none (by omega)]

/-- **C49**, violated: a read, write or control command for a drive that is not configured follows a null pointer. -/
theorem C49_violated_absent (addr : Nat) (ha : addr < 256) (drives : List (Option Drive)) (u : Nat) (hu : u < 6) (hd : drives[u]? = some none) (c : Nat) (hc : c < 256)
    (hcm : c % 4 = 1 ∨ c % 4 = 2 ∨ c % 8 = 7 ∨ c % 16 = 12) (hold : Bool) (bi : Nat) :
    Bus.Spec.initialSelection dev ⟨create addr drives, Bus.Spec.rest, bi⟩ ((addr &&& 0xf8) ||| u) c hold = .oob := by
  refine select_oob (create_rest addr ha drives).free u c (by omega) hc hold bi ?_
  unfold deviceCmd
  rw [if_neg (by rintro ⟨-, -, q⟩; revert q; show ¬ ((0 : Nat) ≠ 0 ∨ tst 0 eNoise = true ∨ tst 0 (eVcr ||| eLrcr) = true); decide)]
  have hd' : (create addr drives).drives[u]? = some none := hd
  simp only [hd']
  have hp : (cmdPrep { create addr drives with tScan := scanNext (create addr drives).tScan, curUnit := u, selected := true, st := .status } none c).cmd = c := rfl
  have hse : (cmdPrep { create addr drives with tScan := scanNext (create addr drives).tScan, curUnit := u, selected := true, st := .status } none c).se1 = 0 := rfl
  have hdr : drive (cmdPrep { create addr drives with tScan := scanNext (create addr drives).tScan, curUnit := u, selected := true, st := .status } none c) u = .oob := by
    show (match drives[u]? with | some (some d) => Res.ok d | _ => .oob) = _
    rw [hd]
  have hcu : (cmdPrep { create addr drives with tScan := scanNext (create addr drives).tScan, curUnit := u, selected := true, st := .status } none c).curUnit = u := rfl
  generalize cmdPrep { create addr drives with tScan := scanNext (create addr drives).tScan, curUnit := u, selected := true, st := .status } none c = p at hp hse hdr hcu
  have ht : ¬ tst p.se1 eTub = true := by rw [hse]; decide
  have w1 : cmdWrite p = .oob := by unfold cmdWrite; rw [if_neg ht, hcu, hdr]; rfl
  have w2 : cmdRead p = .oob := by unfold cmdRead; rw [if_neg ht, hcu, hdr]; rfl
  have w3 : cmdReadBack p = .oob := by unfold cmdReadBack; rw [if_neg ht, hcu, hdr]; rfl
  have w4 : cmdMotion p = .oob := by unfold cmdMotion; rw [if_neg ht, hcu, hdr]; rfl
  unfold cmdSwitch
  rw [hp, if_neg (by omega), w1, w2, w3, w4]
  split
  · rfl
  · split
    · rfl
    · split
      · rfl
      · rw [if_neg (by omega), if_neg (by omega), if_pos (by omega)]
        rfl

end Verif.Mt
