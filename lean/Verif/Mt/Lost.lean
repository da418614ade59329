import Verif.Mt.Chan
/-!
# What a channel program can lose on the 2415 (C104, C106, C107), and cases that meet the hypotheses
-/
namespace Verif.Mt
open Verif.Bus
open Verif.Card (Res)
open Verif.Tape (Tape St Fmt Z Item IsTE Rel)

/-! ## C104: nothing recorded -/

theorem empty_loop (b : Tape.Buf) (h1 : b.opened = true) (h2 : b.file = []) (h3 : b.lenBuff = 0) (h4 : b.dirty = false) :
    ∃ b', Tape.rdLoop 4 b = .ok (.eot, [], b') ∧ b'.opened = true ∧ b'.file = [] ∧ b'.lenBuff = 0 ∧ b'.dirty = false := by
  have h5 : (Tape.fill b (b.pos + b.lenBuff)).lenBuff = 0 := by simp [Tape.fill, h2]
  refine ⟨{ { Tape.fill b (b.pos + b.lenBuff) with posBuff := 0 } with eot := true }, ?_, h1, h2, h5, h4⟩
  unfold Tape.rdLoop Tape.readByte Tape.refill
  rw [if_neg (by rw [h1]; decide), if_pos (.inr h3), if_neg (by rw [h4]; decide)]
  dsimp only
  rw [if_pos h5]
  rfl

theorem empty_read (t : Tape) (hf : t.fmt = .tap ∨ t.fmt = .e11) (h1 : t.b.opened = true) (h2 : t.b.file = []) (h3 : t.b.lenBuff = 0) (h4 : t.b.dirty = false) (h5 : t.b.eot = false)
    (h6 : t.lrecl = 0) (h7 : t.orecl = 0) : ∃ t1 t3, Tape.readForw t = .ok (.eot, t1) ∧ Gives [] t1 t1 ∧ ∀ fuel junk, Tape.finishRec fuel junk t1 = .ok (.eot, t3) := by
  obtain ⟨b1, e1, a1, a2, a3, a4⟩ := empty_loop { t.b with bot := false } h1 h2 h3 h4
  obtain ⟨b2, e2, -⟩ := empty_loop b1 a1 a2 a3 a4
  refine ⟨{ t with b := b1, mark := false, parity := false, func := .read, srec := t.b.pos + t.b.posBuff }, { t with b := b2, mark := false, parity := false, func := .read, srec := t.b.pos + t.b.posBuff }, ?_, ⟨rfl, fun d => ?_⟩, fun fuel junk => ?_⟩
  · unfold Tape.readForw
    rw [if_neg (by rw [h1]; decide)]
    dsimp only
    rw [if_neg (by rw [h5]; decide), if_pos hf, e1]
    rfl
  · unfold Tape.readFrame
    rw [if_neg (by dsimp only; rw [a1]; decide), if_neg (by show ¬ false = true; decide), if_pos hf, if_pos rfl, if_pos (by dsimp only; omega)]
  · unfold Tape.finishRec
    rw [if_neg (by dsimp only; rw [a1]; decide), if_pos hf, if_neg (by show ¬ false = true; decide)]
    dsimp only
    rw [show t.orecl - t.lrecl = 0 by omega]
    show ((if t.fmt = .tap ∧ t.orecl % 2 = 1 then Tape.readByte b1 0 else .ok (.ok, 0, b1)) >>= fun q => Tape.rdLoop 4 q.2.2 >>= _ : Tape.Res (St × Tape)) = _
    rw [if_neg (by omega)]
    show (Tape.rdLoop 4 b1 >>= _ : Tape.Res (St × Tape)) = _
    rw [e2]
    rfl

/-- **C104**, violated: a read of a reel on which nothing is recorded ends with channel end and device end like a record of
no bytes. -/
theorem C104_violated_blank (s : S) (h : AtRest s) (u : Nat) (f : Fmt) (hf : IsTE f) (ring den : Bool) (hu : u < 6) (hd : s.drives[u]? = some (some (mount (newDrive true) [] f ring den)))
    (h1 : s.rew u = false) (h2 : s.run u = false) (w : Spec.World) (hw : 3 ≤ w.rounds) (want bi : Nat) :
    ∃ s' bi', Spec.perform w ⟨s, Bus.Spec.rest, bi⟩ u 2 want =
      .ok ({ initial := Bus.Spec.byte 0, data := [], ending := some (Bus.Spec.byte 0x0c) }, ⟨s', Bus.Spec.rest, bi'⟩) := by
  obtain ⟨t1, t3, e1, e2, e3⟩ := empty_read (mount (newDrive true) [] f ring den).t hf rfl rfl rfl rfl rfl rfl rfl
  have hr : Ready s u (mount (newDrive true) [] f ring den) := ⟨hu, hd, rfl, rfl, rfl, h1, h2⟩
  obtain ⟨k, hk⟩ : ∃ k, w.rounds = k + 3 := ⟨w.rounds - 3, by omega⟩
  obtain ⟨s', bi', e, -⟩ := perform_read (bi := bi) w (c := 2) (.inl rfl) (by decide) h hr (.inl ⟨.inl rfl, rfl⟩) e1 (by decide) want (bs := []) (σ := 12) (by decide) (t3 := t3) (fun s' b' g => by
    rw [hk]
    obtain ⟨s2, a1, a2⟩ := recv_record (hold := w.hold) (bi := b') w (.inl rfl) (setAt hd) k rfl (fun fuel => e3 fuel w.junk) [] want g e2 (by simp)
    exact ⟨s2, by simpa using a1, a2⟩)
  exact ⟨s', bi', e⟩

/-! ## C106: test I/O while a tape moves -/

/-- The start of a control command. -/
theorem start_motion (w : Spec.World) {s s1 : S} {u c : Nat} {d : Drive} {t1 : Tape} (hc8 : c < 256) (hc0 : c ≠ 0) (h : AtRest s) (hr : Ready s u d)
    (e1 : deviceCmd { s with tScan := scanNext s.tScan, curUnit := u, selected := true, st := .status } c = .ok s1)
    (g1 : Going s s1 u c d t1 .status true 8 true [.tape u] false) (bi : Nat) :
    ∃ s' bi', Spec.start w ⟨s, Bus.Spec.rest, bi⟩ u c = .ok (Bus.Spec.byte 8, ⟨s', Bus.Spec.rest, bi'⟩) ∧ s'.chaining = false ∧ Going s s' u c d t1 .idle false 0 true [.tape u] false := by
  have e2 := select_ok h.free u c (by have := hr.lt; omega) hc8 w.hold bi e1 g1.st (by rw [g1.status]; decide)
  have hb : Bus.Spec.byte s1.status = Bus.Spec.byte 8 := by rw [g1.status]
  rw [hb] at e2
  obtain ⟨s2, b2, e3, hch, g2⟩ := accept_motion (hold := w.hold) (bi := Bus.Spec.byte 8) g1 hc0 h.addr
  obtain ⟨L, e4, e5⟩ := bind_ok' e3
  obtain ⟨L', e6, e7⟩ := bind_ok' e5
  simp only [Res.ok.injEq, Prod.mk.injEq] at e7
  obtain ⟨rfl, rfl⟩ := e7
  refine ⟨{ s2 with tScan := scanNext s2.tScan }, b2, ?_, hch, g2.scan_to _ (scanNext_lt g2.scan)⟩
  unfold Spec.start
  rw [e2, bk, e4, bk, e6, bk]

/-- Test I/O accepted while the event of a control command is pending. -/
theorem tio_start (w : Spec.World) {s0 s : S} {u v c : Nat} {d : Drive} {t : Tape} {d' : Option Drive} (g : Going s0 s u c d t .idle false 0 true [.tape u] false) (ha : s0.addr < 256)
    (hv : v < 6) (hd : s.drives[v]? = some d') (bi : Nat) :
    ∃ s' bi', Spec.start w ⟨s, Bus.Spec.rest, bi⟩ v 0 = .ok (Bus.Spec.byte 0, ⟨s', Bus.Spec.rest, bi'⟩) ∧ s'.evs = [.tape u] ∧ s'.cmd = 0 ∧ AtRest { s' with evs := [] } ∧
      s'.drives = s.drives ∧ s'.rew = s.rew ∧ s'.run = s.run := by
  have hfree : Free s := ⟨g.st, g.request, g.stacked, g.busyFlag, g.status, g.rdy, by rw [g.addr]; exact ha⟩
  have e : deviceCmd { s with tScan := scanNext s.tScan, curUnit := v, selected := true, st := .status } 0 =
      .ok (cmdPrep { s with tScan := scanNext s.tScan, curUnit := v, selected := true, st := .status } d' 0) := by
    unfold deviceCmd
    rw [if_neg (by rintro ⟨q, -⟩; rw [show ({ s with tScan := scanNext s.tScan, curUnit := v, selected := true, st := .status } : S).statUnit = s.statUnit from rfl, g.statUnit] at q; cases q)]
    simp only [hd]
    rfl
  have e2 := select_ok hfree v 0 (by omega) (by decide) w.hold bi e rfl (by show 0 < 256; decide)
  have hup : upd (upd s.rdy v false) v false = fun _ => false := by
    funext k
    unfold upd
    split
    · rfl
    · exact g.rdy k
  generalize hp : cmdPrep { s with tScan := scanNext s.tScan, curUnit := v, selected := true, st := .status } d' 0 = p at e e2
  have p1 : p.status = 0 := by rw [← hp]; rfl
  have p2 : p.cmdDone = true := by rw [← hp]; rfl
  have p3 : p.evs = [.tape u] := by rw [← hp]; exact g.evs
  have p4 : upd p.rdy p.curUnit false = fun _ => false := by rw [← hp]; exact hup
  have p5 : p.request = false := by rw [← hp]; exact g.request
  have p6 : p.tScan < 6 := by rw [← hp]; exact scanNext_lt g.scan
  have p7 : p.addr < 256 := by rw [← hp]; show s.addr < 256; rw [g.addr]; exact ha
  have p8 : p.statUnit = none := by rw [← hp]; rfl
  have p9 : p.drives = s.drives ∧ p.rew = s.rew ∧ p.run = s.run := by rw [← hp]; exact ⟨rfl, rfl, rfl⟩
  have hb : Bus.Spec.byte p.status = Bus.Spec.byte 0 := by rw [p1]
  rw [hb] at e2
  have hq : Quiet { p with chaining := false, status := 0, stacked := false, dataEnd := false, cmdDone := false, cmd := 0, busyFlag := false, st := .idle, selected := false, rdy := fun _ => false } :=
    ⟨rfl, p5, rfl, fun _ => rfl, p6⟩
  refine ⟨{ p with chaining := false, status := 0, stacked := false, dataEnd := false, cmdDone := false, cmd := 0, busyFlag := false, st := .idle, selected := false, rdy := fun _ => false, tScan := scanNext p.tScan }, Bus.Spec.byte 0, ?_, p3, rfl,
    ⟨rfl, rfl, p5, rfl, rfl, rfl, fun _ => rfl, rfl, scanNext_lt p6, p7, .inl p8⟩, p9⟩
  have hw : withPar ({ p with st := .statusAccept } : S).status = .ok (Bus.Spec.byte 0) := by
    show withPar p.status = _
    rw [p1]; exact withPar_ok 0 (by decide)
  have e3 : dev { p with st := .statusAccept } { opr := true, hld := w.hold, oprIn := true, staIn := true, srv := true } 0 (Bus.Spec.byte 0) =
      .ok ({ p with chaining := false, status := 0, stacked := false, dataEnd := false, cmdDone := false, cmd := 0, busyFlag := false, st := .statusWait, rdy := fun _ => false },
        { opr := true, hld := w.hold, srv := true }, Bus.Spec.byte 0) := by
    unfold dev
    rw [if_neg (by simp)]
    show statusAccept _ _ = _
    unfold statusAccept
    rw [hw, bk]
    simp [accepted, p2, p4]
  have e4 : dev { p with chaining := false, status := 0, stacked := false, dataEnd := false, cmdDone := false, cmd := 0, busyFlag := false, st := .statusWait, rdy := fun _ => false } { opr := true, hld := w.hold } 0 (Bus.Spec.byte 0) =
      .ok ({ p with chaining := false, status := 0, stacked := false, dataEnd := false, cmdDone := false, cmd := 0, busyFlag := false, st := .idle, selected := false, rdy := fun _ => false },
        { opr := true, hld := w.hold }, Bus.Spec.byte 0) := by
    unfold dev
    rw [if_neg (by simp)]
    simp [statusWait]
  unfold Spec.start
  rw [e2, bk]
  have e5 : Bus.Spec.accept dev ⟨{ p with st := .statusAccept }, { opr := true, hld := w.hold, oprIn := true, staIn := true }, Bus.Spec.byte 0⟩ 0 =
      .ok ⟨{ p with chaining := false, status := 0, stacked := false, dataEnd := false, cmdDone := false, cmd := 0, busyFlag := false, st := .idle, selected := false, rdy := fun _ => false },
        { opr := true, hld := w.hold }, Bus.Spec.byte 0⟩ := by
    unfold Bus.Spec.accept
    rw [poll_ok (by exact e3), bk]
    exact poll_ok (by exact e4)
  rw [e5, bk]
  unfold Spec.release
  rw [poll_ok (f := fun t : Tags => { t with hld := false }) (by exact hq.dev _), bk]

/-- With nothing pending nothing is ever reported. -/
theorem attend_dead (w : Spec.World) : ∀ (n : Nat) {s : S} (_ : AtRest s) (bi : Nat), Spec.attend w n ⟨s, Bus.Spec.rest, bi⟩ = .fuel := by
  intro n
  induction n with
  | zero => intro s h bi; rfl
  | succ n ih =>
    intro s h bi
    obtain ⟨k, hk, e⟩ := Quiet.idles (w.gap n + 1) (s := s) ⟨h.st, h.request, h.stacked, h.rdy, h.scan⟩ bi
    show (Spec.idles (w.gap n + 1) _).bind _ = _
    rw [e, bk, if_neg (by simp [Bus.Spec.rest])]
    have ht : Spec.tick w ⟨{ s with tScan := k }, Bus.Spec.rest, bi⟩ = .ok ⟨{ s with tScan := k }, Bus.Spec.rest, bi⟩ := by
      unfold Spec.tick fire
      simp only [h.evs]
      rfl
    rw [ht, bk]
    exact ih (h.scan_to k hk) bi

/-- **C106**, violated: a rewind is started and channel end accepted; then test I/O for any unit, the same one or another, is
answered with status zero, and the rewind is forgotten: the tape does not move and device end never comes. -/
theorem C106_violated_rewind_lost (s : S) (h : AtRest s) (u : Nat) (q : Bool × Spec.Reel) (hh : Spec.Holds s u q) (v : Nat) (hv : v < s.drives.length) (hl : s.drives.length = 6)
    (w : Spec.World) (bi : Nat) :
    ∃ L1 L2 L3, Spec.start w ⟨s, Bus.Spec.rest, bi⟩ u 7 = .ok (Bus.Spec.byte 8, L1) ∧ Spec.start w L1 v 0 = .ok (Bus.Spec.byte 0, L2) ∧ Spec.tick w L2 = .ok L3 ∧
      Spec.Holds L3.s u q ∧ (∀ n, Spec.attend w n L2 = .fuel) ∧ ∀ n, Spec.attend w n L3 = .fuel := by
  obtain ⟨d, f, rest, z, hr, hf, k, hb, ha, he, hj⟩ := hh
  obtain ⟨s1, e4, g1⟩ := start_space (c := 0x07) (start := fun t => .ok (.ok, t)) h hr (.inr (.inr (.inl ⟨rfl, rfl⟩))) rfl (by decide)
  obtain ⟨s2, b2, e5, -, g2⟩ := start_motion w (by decide) (by decide) h hr e4 g1 bi
  have hds : s2.drives = s.drives := by
    rw [g2.drives]
    have := hr.at'
    obtain ⟨hlt, hget⟩ := List.getElem?_eq_some_iff.1 this
    show s.drives.set u (some d) = _
    rw [← hget]
    exact List.set_getElem_self hlt
  obtain ⟨d', hd'⟩ : ∃ d', s2.drives[v]? = some d' := by rw [hds]; exact ⟨s.drives[v], List.getElem?_eq_getElem hv⟩
  obtain ⟨s3, b3, e6, k1, k2, k3, k4, k5, k6⟩ := tio_start w g2 h.addr (by omega) hd' b2
  have ht : Spec.tick w ⟨s3, Bus.Spec.rest, b3⟩ = .ok ⟨{ s3 with evs := [] }, Bus.Spec.rest, b3⟩ := by
    unfold Spec.tick
    rw [fire_one k1]
    show (tapeCb _ _ _ _).bind _ = _
    unfold tapeCb
    have : ({ s3 with evs := [] } : S).cmd = 0 := k2
    rw [this]
    rfl
  refine ⟨_, _, _, e5, e6, ht, ⟨d, f, rest, z, ⟨hr.lt, by show s3.drives[u]? = _; rw [k4, hds]; exact hr.at', hr.opened, hr.online, hr.nine, by show s3.rew u = _; rw [k5, g2.rew]; exact hr.rew, by show s3.run u = _; rw [k6, g2.run]; exact hr.run⟩, hf, k, hb, ha, he, hj⟩, ?_,
    fun n => attend_dead w n k3 b3⟩
  intro n
  cases n with
  | zero => rfl
  | succ n =>
    obtain ⟨j, hj', e⟩ := attend_tick w (s := s3) ⟨k3.st, k3.request, k3.stacked, k3.rdy, k3.scan⟩ b3 n k1
    rw [e { s3 with tScan := j, evs := [] } (by
      show tapeCb _ _ _ _ = _
      unfold tapeCb
      rw [show ({ s3 with tScan := j, evs := [] } : S).cmd = 0 from k2]
      rfl)]
    exact attend_dead w n (k3.scan_to j hj') b3

/-! ## C107: reset -/

/-- **C107** for the lines of a control that was selected, and for the operation that was under way. -/
theorem C107_reset_partial (L : Spec.Link) :
    ∃ L', Spec.systemReset L = .ok L' ∧ L'.s.st = .idle ∧ L'.s.selected = false ∧ L'.s.request = false ∧ L'.s.busyFlag = false ∧ L'.s.cmd = 0 ∧ L'.s.se0 = 0 ∧ L'.s.drives = L.s.drives ∧
      (L.s.selected = true → L'.t.oprIn = false ∧ L'.t.adrIn = false ∧ L'.t.staIn = false ∧ L'.t.srvIn = false) := by
  unfold Spec.systemReset Bus.Spec.poll dev
  rw [if_pos ⟨rfl, rfl⟩]
  refine ⟨_, rfl, rfl, rfl, rfl, rfl, rfl, rfl, rfl, fun q => ?_⟩
  simp [reset, q]

/-- **C107**, violated: a device end that is waiting for the channel is still waiting after a system reset, and request in is
up during and after the reset. -/
theorem C107_violated_pending (s : S) (h : AtRest s) (u : Nat) (q : Bool × Spec.Reel) (hh : Spec.Holds s u q) :
    ∃ rounds, ∀ w : Spec.World, rounds ≤ w.rounds → ∀ bi, ∃ L1 L2 L3, Spec.start w ⟨s, Bus.Spec.rest, bi⟩ u 7 = .ok (Bus.Spec.byte 8, L1) ∧ Spec.attend w w.rounds L1 = .ok L2 ∧
      Spec.systemReset L2 = .ok L3 ∧ L3.t.reqIn = true ∧
      ∀ n, ∃ L4 L5, Spec.idles (n + 1) L3 = .ok L4 ∧ L4.t.reqIn = true ∧ Spec.service w L4 = .ok ((Bus.Spec.byte ((s.addr &&& 0xf8) ||| u), Bus.Spec.byte 4), L5) := by
  obtain ⟨d, f, rest, z, hr, hf, k, hb, ha, he, hj⟩ := hh
  have hl := setAt hr.at'
  obtain ⟨t1, rest', e1, ho, k1⟩ := rewound_rel hf k he
  refine ⟨6 + t1.posFrame.toNat + 3, fun w hw bi => ?_⟩
  obtain ⟨s1, e4, g1⟩ := start_space (c := 0x07) (start := fun t => .ok (.ok, t)) h hr (.inr (.inr (.inl ⟨rfl, rfl⟩))) rfl (by decide)
  obtain ⟨s2, b2, e5, hch, g2⟩ := start_motion w (by decide) (by decide) h hr e4 g1 bi
  obtain ⟨k', s3, hk, e6, g3⟩ := rewind_ok (bi := b2) w hl hr.rew hr.run hch g2 e1 ho (w.rounds - (t1.posFrame.toNat + 3))
  rw [show w.rounds - (t1.posFrame.toNat + 3) + t1.posFrame.toNat + 3 = w.rounds by omega] at e6
  obtain ⟨s4, e7, a1, g4⟩ := g3.attend (bi := b2) w hr.lt k' (by unfold away; omega)
  have g5 : Done s { s4 with se0 := 0, cmd := 0, cmdDone := false, dataEnd := false, dataRdy := false } u d { t1 with b := { t1.b with bot := true }, posFrame := 0 } 4 :=
    ⟨g4.st, g4.selected, g4.status, g4.evs, .inr rfl, g4.request, g4.stacked, g4.busyFlag, g4.rdy, g4.curUnit, g4.statUnit, g4.scan, g4.addr, g4.rew, g4.run, g4.drives⟩
  have e8 : Spec.systemReset ⟨{ s4 with request := true }, asking, b2⟩ = .ok ⟨{ s4 with se0 := 0, cmd := 0, cmdDone := false, dataEnd := false, dataRdy := false, request := false }, asking, b2⟩ := by
    unfold Spec.systemReset Bus.Spec.poll dev
    rw [if_pos ⟨rfl, rfl⟩, bk, bk]
    have x1 := g4.st
    have x2 := g4.selected
    have x3 := g4.busyFlag
    cases s4
    dsimp only at x1 x2 x3
    subst x1 x2 x3
    rfl
  obtain ⟨s5, L5, b5, e9, -, -⟩ := g5.service (bi := b2) w hr.lt a1 (by decide) (by decide) h.addr
  refine ⟨_, _, _, e5, by rw [e6, e7], e8, rfl, fun n => ⟨_, L5, ?_, ?_, e9⟩⟩
  · refine (idles_step (g5.dev_found (bi := b2) a1 (r := true) (r' := false) rfl) n).trans ?_
    exact idles_fix (g5.dev_found (bi := b2) a1 (r := true) (r' := true) rfl) n
  · rfl

/-! ## Cases that meet the hypotheses -/

/-- A record, a tape mark and two records on unit 0, without the ring; a blank reel with the ring on unit 2; unit 4 has no
tape; the others are not configured. -/
def twoReels : List (Option Drive) :=
  [some (mount (newDrive true) (Tape.images .tap [.data [1, 2, 3], .mark, .data [4], .data [5, 6]] ++ []) .tap false true), none,
   some (mount (newDrive true) (Tape.images .e11 [] ++ []) .e11 true true), none, some (newDrive true), none]

def twoTapes : Nat → Option (List Item)
  | 0 => some [.data [1, 2, 3], .mark, .data [4], .data [5, 6]]
  | 2 => some []
  | _ => none

theorem twoReels_config : Spec.Config twoReels := by
  refine ⟨rfl, fun u d hd => ?_⟩
  have hu : u < 6 := (List.getElem?_eq_some_iff.1 hd).1
  have : u = 0 ∨ u = 1 ∨ u = 2 ∨ u = 3 ∨ u = 4 ∨ u = 5 := by omega
  rcases this with rfl | rfl | rfl | rfl | rfl | rfl
  · cases hd; exact ⟨true, .inr ⟨_, _, _, _, rfl⟩⟩
  · cases hd
  · cases hd; exact ⟨true, .inr ⟨_, _, _, _, rfl⟩⟩
  · cases hd
  · cases hd; exact ⟨true, .inl rfl⟩
  · cases hd

theorem twoReels_mounted : ∀ u items, twoTapes u = some items → Spec.Mounted twoReels u (decide (u = 2)) items := by
  intro u items h
  unfold twoTapes at h
  split at h
  · cases h
    refine ⟨.tap, [], true, .inl rfl, ?_, rfl⟩
    intro i hi
    simp only [List.mem_cons, List.not_mem_nil, or_false] at hi
    rcases hi with rfl | rfl | rfl | rfl <;> simp [Tape.Fits]
  · cases h
    exact ⟨.e11, [], true, .inr rfl, by simp, rfl⟩
  · cases h

/-- A program over both drives. -/
def twoProgram : List (Nat × Spec.Cmd) :=
  [(0, .read 10), (2, .mark), (0, .space), (0, .read 1), (0, .readBack 5), (0, .fileBack), (2, .rewind), (2, .read 4), (0, .file), (0, .rewind)]

theorem twoProgram_valid : Spec.Valid (fun u => (twoTapes u).map fun items => (decide (u = 2), ⟨[], items, false⟩)) twoProgram := by
  simp [twoProgram, Spec.Valid, Spec.after, twoTapes, Spec.Cmd.can, Spec.Cmd.effect, Spec.toMark]

/-- The channel program over the two drives of a control at 0x180, and what the channel sees. -/
example : Spec.Sees (fun _ => True) twoProgram ⟨create 0x80 twoReels, Bus.Spec.rest, 0⟩
    (Spec.results 0x80 (fun u => (twoTapes u).map fun items => (decide (u = 2), ⟨[], items, false⟩)) twoProgram) :=
  C103_programs_partial 0x80 (by decide) twoReels twoReels_config _ _ twoReels_mounted twoProgram twoProgram_valid 0

/-- The third command reads one byte of the record `4`, the fifth the record backward, the eighth the tape mark. -/
example : (Spec.results 0x80 (fun u => (twoTapes u).map fun items => (decide (u = 2), ⟨[], items, false⟩)) twoProgram).map (·.data) =
    [[0x001, 0x002, 0x103].map id, [], [], [0x004], [0x004], [], [], [], [], []] := by decide +kernel

/-- C48: unit 0 after a write, a rewind and the unload key. -/
example : Spec.Leaves 0 (Tape.images .tap [.data [1, 2, 3], .mark, .data [4], .data [5, 6]] ++ []) [.key 0 .unload, .key 0 .start] := by
  intro same file' f ring den h
  simp at h

/-- C49: a control with six drives. -/
example : ∃ drives, Spec.Config drives ∧ (∀ u, u < 6 → ∃ d, drives[u]? = some (some d)) ∧ Spec.InRange 0x80 [.poll { opr := true, adr := true, sel := true } 0x85 0, .key 5 .start] := by
  refine ⟨List.replicate 6 (some (newDrive true)), ⟨rfl, fun u d hd => ?_⟩, fun u hu => ⟨newDrive true, ?_⟩, ?_, ?_⟩
  · have := (List.getElem?_eq_some_iff.1 hd).2
    simp only [List.getElem_replicate] at this
    cases this
    exact ⟨true, .inl rfl⟩
  · rw [List.getElem?_replicate, if_pos hu]
  · intro t bo bi h
    simp only [List.mem_cons, Op.poll.injEq, List.not_mem_nil, or_false, reduceCtorEq] at h
    obtain ⟨-, rfl, -⟩ := h
    intro _ _
    decide
  · intro u k h
    simp only [List.mem_cons, Op.key.injEq, List.not_mem_nil, or_false, reduceCtorEq, false_or] at h
    omega

/-- C102: a blank reel with the ring on unit 2. -/
example : Spec.Holds (create 0x80 twoReels) 2 (true, ⟨[], [], false⟩) := mounted_holds twoReels_config (twoReels_mounted 2 [] rfl)

/-- C106, C107, C108: the reel without the ring on unit 0. -/
example : Spec.Holds (create 0x80 twoReels) 0 (false, ⟨[], [.data [1, 2, 3], .mark, .data [4], .data [5, 6]], false⟩) := mounted_holds twoReels_config (twoReels_mounted 0 _ rfl)

/-- C109: unit 4 has no tape. -/
example : (create 0x80 twoReels).drives[4]? = some (some (newDrive true)) ∧ ready (newDrive true) = false := ⟨rfl, rfl⟩

end Verif.Mt
