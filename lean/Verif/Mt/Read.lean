import Verif.Mt.Session
/-!
# The read commands of the 2415 over the channel
-/
namespace Verif.Mt
open Verif.Bus
open Verif.Card (Res)
open Verif.Tape (Tape St Fmt Z Item IsTE Rel)

theorem idles_fix {s : S} {t : Tags} {bi : Nat} (e : dev s t 0 bi = .ok (s, t, bi)) : ∀ n, Spec.idles n ⟨s, t, bi⟩ = .ok ⟨s, t, bi⟩ := by
  intro n
  induction n with
  | zero => rfl
  | succ n ih => unfold Spec.idles; rw [poll_ok (f := id) (by exact e), bk, ih]

theorem idles_step {s s' : S} {t t' : Tags} {bi bi' : Nat} (e : dev s t 0 bi = .ok (s', t', bi')) (n : Nat) : Spec.idles (n + 1) ⟨s, t, bi⟩ = Spec.idles n ⟨s', t', bi'⟩ := by
  show (Bus.Spec.poll dev _ id 0).bind _ = _
  rw [poll_ok (f := id) (by exact e), bk]

theorem fire_one {s : S} {e : Ev} (h : s.evs = [e]) (fuel junk : Nat) : fire fuel junk s 0 = callback fuel junk { s with evs := [] } e := by
  unfold fire; rw [h]; rfl

/-- The tags while the device is connected. -/
def conn (hold : Bool) : Tags := { opr := true, hld := hold, oprIn := true }

/-- The read commands. -/
def IsRead (c : Nat) : Prop := c % 16 = 2 ∨ c % 16 = 6 ∨ c % 16 = 10 ∨ c % 16 = 14 ∨ c % 16 = 12

theorem and3 (c : Nat) : c &&& 3 = c % 4 := Nat.and_two_pow_sub_one_eq_mod c 2
theorem and1 (c : Nat) : c &&& 1 = c % 2 := Nat.and_two_pow_sub_one_eq_mod c 1

theorem IsRead.facts {c : Nat} (h : IsRead c) : c ≠ 0 ∧ c % 16 ≠ 4 ∧ c &&& 3 ≠ 3 ∧ tst c 1 = false := by
  rw [and3]
  unfold IsRead at h
  refine ⟨by omega, by omega, by omega, ?_⟩
  unfold tst
  rw [and1]
  have : c % 2 = 0 := by omega
  rw [this]; rfl

section
variable {s0 s : S} {u c : Nat} {d : Drive} {t t1 : Tape} {st : DState} {sel : Bool} {σ : Nat} {de : Bool} {evs : List Ev} {cd : Bool} {hold : Bool} {bi : Nat}

theorem Going.opr_fix (h : Going s0 s u c d t .opr sel σ de evs false) (hc : c % 16 ≠ 4) : dev s (conn hold) 0 bi = .ok (s, conn hold, bi) := by
  have e : ({ s with request := false } : S) = s := by rw [← h.request]
  unfold dev
  rw [if_neg (by simp [conn])]
  simp only [h.st]
  unfold opr
  rw [if_neg (by simp [conn]), if_neg (by rw [h.dataRdy]; decide), e]
  simp only [oprSense, h.cmd, if_neg hc, h.cmdDone, Bool.false_eq_true, if_false]
  rfl

theorem accept_opr (h : Going s0 s u c d t .status true 0 false evs false) (hc : c ≠ 0) (h4 : c % 16 ≠ 4) :
    ∃ s' bi', Bus.Spec.accept dev ⟨{ s with st := .statusAccept }, { opr := true, hld := hold, oprIn := true, staIn := true }, bi⟩ 0 = .ok ⟨s', conn hold, bi'⟩ ∧
      Going s0 s' u c d t .opr true 0 false evs false := by
  have g : Going s0 { s with st := .opr, chaining := false, status := 0 } u c d t .opr true 0 false evs false :=
    ⟨rfl, h.selected, rfl, h.dataEnd, h.evs, h.cmdDone, h.request, h.stacked, h.busyFlag, h.cmd, h.dataRdy, h.se0, h.rdy, h.curUnit, h.statUnit, h.scan, h.addr, h.rew, h.run, h.drives⟩
  refine ⟨_, Bus.Spec.byte 0, ?_, g⟩
  unfold Bus.Spec.accept
  have e1 : dev { s with st := .statusAccept } { opr := true, hld := hold, oprIn := true, staIn := true, srv := true } 0 bi =
      .ok ({ s with st := .opr, chaining := false, status := 0 }, { opr := true, hld := hold, oprIn := true, srv := true }, Bus.Spec.byte 0) := by
    unfold dev
    rw [if_neg (by simp)]
    simp only [statusAccept, h.status, withPar_ok 0 (by decide), bk]
    simp [accepted, h.cmdDone, h.cmd, hc, h.dataEnd]
  rw [poll_ok (by exact e1), bk]
  exact poll_ok (by exact g.opr_fix h4)

/-- The next event is due and the bus function is called. -/
theorem step_going {s1 : S} (e : Ev) (he : s.evs = [e]) (w : Spec.World) (h : callback w.fuel w.junk { s with evs := [] } e = .ok s1) (L : Tags) (n : Nat) :
    (Spec.tick w ⟨s, L, bi⟩).bind (Spec.idles n) = Spec.idles n ⟨s1, L, bi⟩ := by
  unfold Spec.tick
  rw [fire_one he, h]
  rfl

theorem tapeCb_read (w : Spec.World) (hc : IsRead c) (hs : s.cmd = c) : callback w.fuel w.junk s (.tape u) = readCb w.fuel w.junk s u := by
  show tapeCb w.fuel w.junk s u = _
  unfold tapeCb
  unfold IsRead at hc
  rw [hs, if_neg (by omega), if_pos (by omega)]

variable (w : Spec.World) (hc : IsRead c) (hl : u < s0.drives.length)
include hc hl

/-- A byte is on the bus. -/
theorem recv_data (h : Going s0 s u c d t .opr true σ false [.tape u] false) (h9 : d.track9 = true) {x : Nat} (hx : x < 256)
    (hr : ∀ j, Tape.readFrame t j = .ok (.ok, x, t1)) (g : Nat) :
    ∃ s2, (Spec.tick w ⟨s, conn hold, bi⟩).bind (Spec.idles (g + 2)) = .ok ⟨{ s2 with st := .data2, dataRdy := true }, { opr := true, hld := hold, oprIn := true, srvIn := true }, Bus.Spec.byte x⟩ ∧
      s2.data = x ∧ Going s0 s2 u c d t1 .opr true σ false [.tape u] false := by
  obtain ⟨c0, c4, c3, c1⟩ := hc.facts
  have h' : Going s0 { s with evs := [] } u c d t .opr true σ false [] false :=
    ⟨h.st, h.selected, h.status, h.dataEnd, rfl, h.cmdDone, h.request, h.stacked, h.busyFlag, h.cmd, h.dataRdy, h.se0, h.rdy, h.curUnit, h.statUnit, h.scan, h.addr, h.rew, h.run, h.drives⟩
  have e : callback w.fuel w.junk { s with evs := [] } (.tape u) = .ok { addEv { setTape { s with evs := [] } u { d with t := t } t1 with data := x } (.tape u) with dataRdy := true } := by
    rw [tapeCb_read w hc h'.cmd]
    unfold readCb
    have hn := h'.nine hl
    rw [show u = ({ s with evs := [] } : S).curUnit from h.curUnit.symm] at hn
    rw [if_neg (by rw [h'.dataEnd]; decide), if_neg (by rw [h'.dataRdy]; decide), h'.drive hl, bk, hn, bk, hr]
    simp only [up, bk, readNext, h9, if_true, Nat.mod_eq_of_lt hx]
  rw [step_going _ h.evs w e]
  have g2 : Going s0 (addEv { setTape { s with evs := [] } u { d with t := t } t1 with data := x } (.tape u)) u c d t1 .opr true σ false [.tape u] false :=
    ⟨h.st, h.selected, h.status, h.dataEnd, rfl, h.cmdDone, h.request, h.stacked, h.busyFlag, h.cmd, h.dataRdy, h.se0, h.rdy, h.curUnit, h.statUnit, h.scan, h.addr, h.rew, h.run, by
      show s.drives.set u _ = _
      rw [h.drives, List.set_set]⟩
  refine ⟨_, ?_, rfl, g2⟩
  have hd : (addEv { setTape { s with evs := [] } u { d with t := t } t1 with data := x } (.tape u)).data = x := rfl
  generalize (addEv { setTape { s with evs := [] } u { d with t := t } t1 with data := x } (.tape u)) = s2 at g2 hd
  have e1 : dev { s2 with dataRdy := true } (conn hold) 0 bi = .ok ({ s2 with dataRdy := true, st := .data1 }, conn hold, bi) := by
    unfold dev
    rw [if_neg (by simp [conn])]
    simp only [g2.st]
    simp [opr, conn, g2.request]
  have e2 : dev { s2 with dataRdy := true, st := .data1 } (conn hold) 0 bi = .ok ({ s2 with dataRdy := true, st := .data2 }, { opr := true, hld := hold, oprIn := true, srvIn := true }, Bus.Spec.byte x) := by
    unfold dev
    rw [if_neg (by simp [conn])]
    simp [data1, conn, hd, withPar_ok x hx, bk]
  have e3 : dev { s2 with dataRdy := true, st := .data2 } { opr := true, hld := hold, oprIn := true, srvIn := true } 0 (Bus.Spec.byte x) =
      .ok ({ s2 with dataRdy := true, st := .data2 }, { opr := true, hld := hold, oprIn := true, srvIn := true }, Bus.Spec.byte x) := by
    unfold dev
    rw [if_neg (by simp)]
    simp [data2, hd, withPar_ok x hx, bk]
  rw [idles_step e1, idles_step e2, idles_fix e3]

/-- The channel takes the byte. -/
theorem take_ok (h : Going s0 s u c d t .opr true σ false [.tape u] false) {x : Nat} (hx : x < 256) (hd : s.data = x) :
    ∃ bi', Bus.Spec.accept dev ⟨{ s with st := .data2, dataRdy := true }, { opr := true, hld := hold, oprIn := true, srvIn := true }, bi⟩ 0 = .ok ⟨s, conn hold, bi'⟩ := by
  obtain ⟨c0, c4, c3, c1⟩ := hc.facts
  refine ⟨Bus.Spec.byte x, ?_⟩
  unfold Bus.Spec.accept
  have e1 : dev { s with st := .data2, dataRdy := true } { opr := true, hld := hold, oprIn := true, srvIn := true, srv := true } 0 bi =
      .ok (s, { opr := true, hld := hold, oprIn := true, srv := true }, Bus.Spec.byte x) := by
    unfold dev
    rw [if_neg (by simp)]
    have : ({ s with st := .opr, dataRdy := false } : S) = s := by rw [← h.st, ← h.dataRdy]
    show data2 _ _ _ = _
    unfold data2
    have hw : withPar ({ s with st := .data2, dataRdy := true } : S).data = .ok (Bus.Spec.byte x) := by
      show withPar s.data = _
      rw [hd]; exact withPar_ok x hx
    rw [hw, bk, if_pos (by rfl)]
    unfold takeByte
    rw [if_neg (by show ¬ tst s.cmd 1 = true; rw [h.cmd, c1]; decide)]
    show Res.ok (({ s with st := .opr, dataRdy := false } : S), _, _) = _
    rw [this]
  rw [poll_ok (by exact e1), bk]
  exact poll_ok (by exact h.opr_fix c4)

/-- The channel wants no more bytes. -/
theorem stop_ok (h : Going s0 s u c d t .opr true σ false [.tape u] false) {x : Nat} (hx : x < 256) (hd : s.data = x) :
    ∃ s' bi', ((Bus.Spec.poll dev ⟨{ s with st := .data2, dataRdy := true }, { opr := true, hld := hold, oprIn := true, srvIn := true }, bi⟩ (fun t => { t with cmd := true }) (Bus.Spec.byte 0)).bind
        fun L => Bus.Spec.poll dev L (fun t => { t with cmd := false }) 0) = .ok ⟨s', conn hold, bi'⟩ ∧
      Going s0 s' u c d t .opr true 8 true [.tape u] false := by
  obtain ⟨c0, c4, c3, c1⟩ := hc.facts
  have g : Going s0 { s with dataEnd := true, status := 8 } u c d t .opr true 8 true [.tape u] false :=
    ⟨h.st, h.selected, rfl, rfl, h.evs, h.cmdDone, h.request, h.stacked, h.busyFlag, h.cmd, h.dataRdy, h.se0, h.rdy, h.curUnit, h.statUnit, h.scan, h.addr, h.rew, h.run, h.drives⟩
  refine ⟨_, Bus.Spec.byte x, ?_, g⟩
  have e1 : dev { s with st := .data2, dataRdy := true } { opr := true, hld := hold, oprIn := true, srvIn := true, cmd := true } (Bus.Spec.byte 0) bi =
      .ok ({ s with dataEnd := true, status := 8 }, { opr := true, hld := hold, oprIn := true, cmd := true }, Bus.Spec.byte x) := by
    unfold dev
    rw [if_neg (by simp)]
    have : ({ s with st := .opr, dataRdy := false, dataEnd := true, status := 8 } : S) = { s with dataEnd := true, status := 8 } := by rw [← h.st, ← h.dataRdy]
    show data2 _ _ _ = _
    unfold data2
    have hw : withPar ({ s with st := .data2, dataRdy := true } : S).data = .ok (Bus.Spec.byte x) := by
      show withPar s.data = _
      rw [hd]; exact withPar_ok x hx
    rw [hw, bk, if_pos (by rfl)]
    unfold takeByte
    rw [if_neg (by show ¬ tst s.cmd 1 = true; rw [h.cmd, c1]; decide)]
    show Res.ok (({ s with st := .opr, dataRdy := false, dataEnd := true, status := 8 } : S), _, _) = _
    rw [this]
  rw [poll_ok (by exact e1), bk]
  exact poll_ok (by exact g.opr_fix c4)

/-- End of block: nothing on the bus. -/
theorem recv_eob (h : Going s0 s u c d t .opr true σ false [.tape u] false) (h9 : d.track9 = true)
    (hr : ∀ j, Tape.readFrame t j = .ok (.eob, j, t)) (n : Nat) :
    ∃ s2, (Spec.tick w ⟨s, conn hold, bi⟩).bind (Spec.idles n) = .ok ⟨s2, conn hold, bi⟩ ∧ Going s0 s2 u c d t .opr true σ true [.tape u] false := by
  obtain ⟨c0, c4, c3, c1⟩ := hc.facts
  have h' : Going s0 { s with evs := [] } u c d t .opr true σ false [] false :=
    ⟨h.st, h.selected, h.status, h.dataEnd, rfl, h.cmdDone, h.request, h.stacked, h.busyFlag, h.cmd, h.dataRdy, h.se0, h.rdy, h.curUnit, h.statUnit, h.scan, h.addr, h.rew, h.run, h.drives⟩
  have e : callback w.fuel w.junk { s with evs := [] } (.tape u) = .ok { addEv { setTape { s with evs := [] } u { d with t := t } t with data := s.data % 256 } (.tape u) with dataEnd := true } := by
    rw [tapeCb_read w hc h'.cmd]
    unfold readCb
    have hn := h'.nine hl
    rw [show u = ({ s with evs := [] } : S).curUnit from h.curUnit.symm] at hn
    rw [if_neg (by rw [h'.dataEnd]; decide), if_neg (by rw [h'.dataRdy]; decide), h'.drive hl, bk, hn, bk, hr]
    simp [up, bk, readNext, h9]
  rw [step_going _ h.evs w e]
  have g2 : Going s0 { addEv { setTape { s with evs := [] } u { d with t := t } t with data := s.data % 256 } (.tape u) with dataEnd := true } u c d t .opr true σ true [.tape u] false :=
    ⟨h.st, h.selected, h.status, rfl, rfl, h.cmdDone, h.request, h.stacked, h.busyFlag, h.cmd, h.dataRdy, h.se0, h.rdy, h.curUnit, h.statUnit, h.scan, h.addr, h.rew, h.run, by
      show s.drives.set u _ = _
      rw [h.drives, List.set_set]⟩
  exact ⟨_, idles_fix (g2.opr_fix c4) n, g2⟩

/-- A frame nobody wants. -/
theorem recv_skip (h : Going s0 s u c d t .opr true σ true [.tape u] false) {x : Nat}
    (hr : ∀ j, Tape.readFrame t j = .ok (.ok, x, t1)) (n : Nat) :
    ∃ s2, (Spec.tick w ⟨s, conn hold, bi⟩).bind (Spec.idles n) = .ok ⟨s2, conn hold, bi⟩ ∧ Going s0 s2 u c d t1 .opr true σ true [.tape u] false := by
  obtain ⟨c0, c4, c3, c1⟩ := hc.facts
  have h' : Going s0 { s with evs := [] } u c d t .opr true σ true [] false :=
    ⟨h.st, h.selected, h.status, h.dataEnd, rfl, h.cmdDone, h.request, h.stacked, h.busyFlag, h.cmd, h.dataRdy, h.se0, h.rdy, h.curUnit, h.statUnit, h.scan, h.addr, h.rew, h.run, h.drives⟩
  have e : callback w.fuel w.junk { s with evs := [] } (.tape u) = .ok (addEv { setTape { s with evs := [] } u { d with t := t } t1 with data := x % 256 } (.tape u)) := by
    rw [tapeCb_read w hc h'.cmd]
    unfold readCb readSkip
    rw [if_pos h'.dataEnd, h'.drive hl, bk, hr]
    simp [up, bk]
  rw [step_going _ h.evs w e]
  have g2 : Going s0 (addEv { setTape { s with evs := [] } u { d with t := t } t1 with data := x % 256 } (.tape u)) u c d t1 .opr true σ true [.tape u] false :=
    ⟨h.st, h.selected, h.status, h.dataEnd, rfl, h.cmdDone, h.request, h.stacked, h.busyFlag, h.cmd, h.dataRdy, h.se0, h.rdy, h.curUnit, h.statUnit, h.scan, h.addr, h.rew, h.run, by
      show s.drives.set u _ = _
      rw [h.drives, List.set_set]⟩
  exact ⟨_, idles_fix (g2.opr_fix c4) n, g2⟩

/-- The record is over. -/
theorem recv_fin (h : Going s0 s u c d t .opr true σ true [.tape u] false)
    (hr : ∀ j, Tape.readFrame t j = .ok (.eob, j, t)) {fs : St} (hf : ∀ fuel, Tape.finishRec fuel w.junk t = .ok (fs, t1)) (n : Nat) :
    ∃ s2, (Spec.tick w ⟨s, conn hold, bi⟩).bind (Spec.idles n) = .ok ⟨s2, conn hold, bi⟩ ∧ Going s0 s2 u c d t1 .opr true (σ ||| 8) true [.done u] false := by
  obtain ⟨c0, c4, c3, c1⟩ := hc.facts
  have h' : Going s0 { s with evs := [] } u c d t .opr true σ true [] false :=
    ⟨h.st, h.selected, h.status, h.dataEnd, rfl, h.cmdDone, h.request, h.stacked, h.busyFlag, h.cmd, h.dataRdy, h.se0, h.rdy, h.curUnit, h.statUnit, h.scan, h.addr, h.rew, h.run, h.drives⟩
  have e : callback w.fuel w.junk { s with evs := [] } (.tape u) =
      .ok (addEv { setTape { s with evs := [] } u { d with t := t } t1 with data := s.data % 256, status := s.status ||| sChnEnd } (.done u)) := by
    rw [tapeCb_read w hc h'.cmd]
    unfold readCb readSkip
    rw [if_pos h'.dataEnd, h'.drive hl, bk, hr]
    simp [up, bk, hf]
  rw [step_going _ h.evs w e]
  have g2 : Going s0 (addEv { setTape { s with evs := [] } u { d with t := t } t1 with data := s.data % 256, status := s.status ||| sChnEnd } (.done u)) u c d t1 .opr true (σ ||| 8) true [.done u] false :=
    ⟨h.st, h.selected, by rw [← h.status]; rfl, h.dataEnd, rfl, h.cmdDone, h.request, h.stacked, h.busyFlag, h.cmd, h.dataRdy, h.se0, h.rdy, h.curUnit, h.statUnit, h.scan, h.addr, h.rew, h.run, by
      show s.drives.set u _ = _
      rw [h.drives, List.set_set]⟩
  exact ⟨_, idles_fix (g2.opr_fix c4) n, g2⟩

/-- A tape mark. -/
theorem recv_mark (h : Going s0 s u c d t .opr true σ false [.tape u] false) (h9 : d.track9 = true)
    (hr : ∀ j, Tape.readFrame t j = .ok (.mark, j, t)) (n : Nat) :
    ∃ s2, (Spec.tick w ⟨s, conn hold, bi⟩).bind (Spec.idles n) = .ok ⟨s2, conn hold, bi⟩ ∧ Going s0 s2 u c d t .opr true (σ ||| 9) true [.done u] false := by
  obtain ⟨c0, c4, c3, c1⟩ := hc.facts
  have h' : Going s0 { s with evs := [] } u c d t .opr true σ false [] false :=
    ⟨h.st, h.selected, h.status, h.dataEnd, rfl, h.cmdDone, h.request, h.stacked, h.busyFlag, h.cmd, h.dataRdy, h.se0, h.rdy, h.curUnit, h.statUnit, h.scan, h.addr, h.rew, h.run, h.drives⟩
  have e : callback w.fuel w.junk { s with evs := [] } (.tape u) =
      .ok (addEv { setTape { s with evs := [] } u { d with t := t } t with data := s.data % 256, dataEnd := true, mrk := upd s.mrk s.curUnit true, status := s.status ||| (sUnitExp ||| sChnEnd) } (.done u)) := by
    rw [tapeCb_read w hc h'.cmd]
    unfold readCb
    have hn := h'.nine hl
    rw [show u = ({ s with evs := [] } : S).curUnit from h.curUnit.symm] at hn
    rw [if_neg (by rw [h'.dataEnd]; decide), if_neg (by rw [h'.dataRdy]; decide), h'.drive hl, bk, hn, bk, hr]
    simp [up, bk, readNext, h9, setTape, setDrive]
  rw [step_going _ h.evs w e]
  have g2 : Going s0 (addEv { setTape { s with evs := [] } u { d with t := t } t with data := s.data % 256, dataEnd := true, mrk := upd s.mrk s.curUnit true, status := s.status ||| (sUnitExp ||| sChnEnd) } (.done u)) u c d t .opr true (σ ||| 9) true [.done u] false :=
    ⟨h.st, h.selected, by rw [← h.status]; rfl, rfl, rfl, h.cmdDone, h.request, h.stacked, h.busyFlag, h.cmd, h.dataRdy, h.se0, h.rdy, h.curUnit, h.statUnit, h.scan, h.addr, h.rew, h.run, by
      show s.drives.set u _ = _
      rw [h.drives, List.set_set]⟩
  exact ⟨_, idles_fix (g2.opr_fix c4) n, g2⟩

/-- The drive has stopped: the ending status is shown. -/
theorem recv_done (h : Going s0 s u c d t .opr true σ de [.done u] false) (hσ : σ < 256) (g : Nat) :
    ∃ s2, (Spec.tick w ⟨s, conn hold, bi⟩).bind (Spec.idles (g + 2)) = .ok ⟨s2, { opr := true, hld := hold, oprIn := true, staIn := true }, Bus.Spec.byte (σ ||| 12)⟩ ∧
      Going s0 s2 u c d t .endAccept true (σ ||| 12) de [] true := by
  obtain ⟨c0, c4, c3, c1⟩ := hc.facts
  have e : callback w.fuel w.junk { s with evs := [] } (.done u) = .ok { s with evs := [], cmdDone := true, status := σ ||| 4 } := by
    show Res.ok (doneCb _ u) = _
    unfold doneCb
    simp only [h.cmd, if_neg c3, h.status, sDevEnd]
  rw [step_going _ h.evs w e]
  have hor : σ ||| 4 ||| (sDevEnd ||| sChnEnd) = σ ||| 12 := by rw [Nat.or_assoc]; rfl
  have hlt : σ ||| 12 < 256 := or8 hσ (by decide)
  have g2 : Going s0 { s with evs := [], cmdDone := true, status := σ ||| 12, st := .endAccept } u c d t .endAccept true (σ ||| 12) de [] true :=
    ⟨rfl, h.selected, rfl, h.dataEnd, rfl, rfl, h.request, h.stacked, h.busyFlag, h.cmd, h.dataRdy, h.se0, h.rdy, h.curUnit, h.statUnit, h.scan, h.addr, h.rew, h.run, h.drives⟩
  refine ⟨_, ?_, g2⟩
  have e1 : dev { s with evs := [], cmdDone := true, status := σ ||| 4 } (conn hold) 0 bi = .ok ({ s with evs := [], cmdDone := true, status := σ ||| 12, st := .endStatus }, conn hold, bi) := by
    unfold dev
    rw [if_neg (by simp [conn])]
    simp only [h.st]
    simp [opr, conn, h.request, h.dataRdy, oprSense, h.cmd, c4, hor]
  have e2 : dev { s with evs := [], cmdDone := true, status := σ ||| 12, st := .endStatus } (conn hold) 0 bi =
      .ok ({ s with evs := [], cmdDone := true, status := σ ||| 12, st := .endAccept }, { opr := true, hld := hold, oprIn := true, staIn := true }, Bus.Spec.byte (σ ||| 12)) := by
    unfold dev
    rw [if_neg (by simp [conn])]
    simp [endStatus, conn, withPar_ok _ hlt, bk]
  have e3 : dev { s with evs := [], cmdDone := true, status := σ ||| 12, st := .endAccept } { opr := true, hld := hold, oprIn := true, staIn := true } 0 (Bus.Spec.byte (σ ||| 12)) =
      .ok ({ s with evs := [], cmdDone := true, status := σ ||| 12, st := .endAccept }, { opr := true, hld := hold, oprIn := true, staIn := true }, Bus.Spec.byte (σ ||| 12)) := by
    unfold dev
    rw [if_neg (by simp)]
    simp [endAccept, withPar_ok _ hlt, bk]
  rw [idles_step e1, idles_step e2, idles_fix e3]

/-- The rest of a record goes by. -/
theorem recv_rest (k want : Nat) {t2 t3 : Tape} {fs : St} (hf : ∀ fuel, Tape.finishRec fuel w.junk t2 = .ok (fs, t3)) (bs : List Nat) : ∀ {s : S} {t : Tape} {bi : Nat},
    Going s0 s u c d t .opr true σ true [.tape u] false → σ < 256 → Gives bs t t2 →
    ∃ s2, Spec.receive w (k + bs.length + 2) want ⟨s, conn hold, bi⟩ = .ok ([], ⟨s2, { opr := true, hld := hold, oprIn := true, staIn := true }, Bus.Spec.byte (σ ||| 12)⟩) ∧
      Going s0 s2 u c d t3 .endAccept true (σ ||| 12) true [] true := by
  induction bs with
  | nil =>
    intro s t bi h hσ ⟨rfl, hg⟩
    obtain ⟨s1, e1, g1⟩ := recv_fin (hold := hold) (bi := bi) w hc hl h hg hf (w.gap (k + 1) + 2)
    obtain ⟨s2, e2, g2⟩ := recv_done (hold := hold) (bi := bi) w hc hl g1 (or8 hσ (by decide)) (w.gap k)
    have ho : σ ||| 8 ||| 12 = σ ||| 12 := by rw [Nat.or_assoc]; rfl
    rw [ho] at e2 g2
    refine ⟨s2, ?_, g2⟩
    show Spec.receive w (k + 1 + 1) want _ = _
    unfold Spec.receive
    rw [e1, bk, if_neg (by simp [conn]), if_neg (by simp [conn])]
    unfold Spec.receive
    rw [e2, bk, if_pos (by rfl)]
  | cons x bs ih =>
    intro s t bi h hσ ⟨t1, hr, hg⟩
    obtain ⟨s1, e1, g1⟩ := recv_skip (hold := hold) (bi := bi) w hc hl h hr (w.gap (k + bs.length + 2) + 2)
    obtain ⟨s2, e2, g2⟩ := ih (bi := bi) g1 hσ hg
    refine ⟨s2, ?_, g2⟩
    show Spec.receive w (k + bs.length + 2 + 1) want _ = _
    unfold Spec.receive
    rw [e1, bk, if_neg (by simp [conn]), if_neg (by simp [conn]), e2]

/-- A record is received. -/
theorem recv_record (k : Nat) (h9 : d.track9 = true) {t2 t3 : Tape} {fs : St} (hf : ∀ fuel, Tape.finishRec fuel w.junk t2 = .ok (fs, t3)) (bs : List Nat) : ∀ {s : S} {t : Tape} {bi : Nat} (want : Nat),
    Going s0 s u c d t .opr true 0 false [.tape u] false → Gives bs t t2 → (∀ x ∈ bs, x < 256) →
    ∃ s2, Spec.receive w (k + bs.length + 3) want ⟨s, conn hold, bi⟩ = .ok ((bs.take want).map Bus.Spec.byte, ⟨s2, { opr := true, hld := hold, oprIn := true, staIn := true }, Bus.Spec.byte 12⟩) ∧
      Going s0 s2 u c d t3 .endAccept true 12 true [] true := by
  induction bs with
  | nil =>
    intro s t bi want h ⟨rfl, hg⟩ _
    obtain ⟨s1, e1, g1⟩ := recv_eob (hold := hold) (bi := bi) w hc hl h h9 hg (w.gap (k + 2) + 2)
    obtain ⟨s2, e2, g2⟩ := recv_rest (hold := hold) w hc hl k want hf [] (bi := bi) g1 (by decide) ⟨rfl, hg⟩
    refine ⟨s2, ?_, g2⟩
    show Spec.receive w (k + 2 + 1) want _ = _
    unfold Spec.receive
    rw [e1, bk, if_neg (by simp [conn]), if_neg (by simp [conn])]
    rw [List.take_nil]
    exact e2
  | cons x bs ih =>
    intro s t bi want h ⟨t1, hr, hg⟩ hx
    have hx0 := hx x List.mem_cons_self
    obtain ⟨s1, e1, hd, g1⟩ := recv_data (hold := hold) (bi := bi) w hc hl h h9 hx0 hr (w.gap (k + bs.length + 3))
    cases want with
    | zero =>
      obtain ⟨s2, b2, e2, g2⟩ := stop_ok (hold := hold) (bi := Bus.Spec.byte x) hc hl g1 hx0 hd
      obtain ⟨s3, e3, g3⟩ := recv_rest (hold := hold) w hc hl (k + 1) 0 hf bs (bi := b2) g2 (by decide) hg
      refine ⟨s3, ?_, g3⟩
      rw [show k + 1 + bs.length + 2 = k + bs.length + 3 by omega] at e3
      show Spec.receive w (k + bs.length + 3 + 1) 0 _ = _
      unfold Spec.receive
      rw [e1, bk, if_neg (by simp), if_pos (by rfl)]
      show (Bus.Spec.poll dev _ _ _).bind _ = _
      obtain ⟨L, e4, e5⟩ := bind_ok' e2
      rw [e4, bk, e5, bk, e3]
      rfl
    | succ n =>
      obtain ⟨b2, e2⟩ := take_ok (hold := hold) (bi := Bus.Spec.byte x) hc hl g1 hx0 hd
      obtain ⟨s3, e3, g3⟩ := ih (bi := b2) n g1 hg (fun y hy => hx y (List.mem_cons_of_mem _ hy))
      refine ⟨s3, ?_, g3⟩
      show Spec.receive w (k + bs.length + 3 + 1) (n + 1) _ = _
      unfold Spec.receive
      rw [e1, bk, if_neg (by simp), if_pos (by rfl)]
      show (Bus.Spec.accept dev _ _).bind _ = _
      rw [e2, bk, e3, bk]
      rfl

/-- A tape mark instead of a record. -/
theorem recv_tm (k want : Nat) (h9 : d.track9 = true) (h : Going s0 s u c d t .opr true 0 false [.tape u] false)
    (hr : ∀ j, Tape.readFrame t j = .ok (.mark, j, t)) :
    ∃ s2, Spec.receive w (k + 2) want ⟨s, conn hold, bi⟩ = .ok ([], ⟨s2, { opr := true, hld := hold, oprIn := true, staIn := true }, Bus.Spec.byte 13⟩) ∧
      Going s0 s2 u c d t .endAccept true 13 true [] true := by
  obtain ⟨s1, e1, g1⟩ := recv_mark (hold := hold) (bi := bi) w hc hl h h9 hr (w.gap (k + 1) + 2)
  obtain ⟨s2, e2, g2⟩ := recv_done (hold := hold) (bi := bi) w hc hl g1 (by decide) (w.gap k)
  refine ⟨s2, ?_, g2⟩
  show Spec.receive w (k + 1 + 1) want _ = _
  unfold Spec.receive
  rw [e1, bk, if_neg (by simp [conn]), if_neg (by simp [conn])]
  unfold Spec.receive
  rw [e2, bk, if_pos (by rfl)]
  rfl

end

/-- After a command: at rest again, and only the tape of drive `u` has changed. -/
structure After (s0 s : S) (u : Nat) (d : Drive) (t : Tape) : Prop where
  rest : AtRest s
  addr : s.addr = s0.addr
  rew : s.rew = s0.rew
  run : s.run = s0.run
  drives : s.drives = s0.drives.set u (some { d with t := t })

section
variable {s0 s : S} {u c : Nat} {d : Drive} {t : Tape} {σ : Nat} {de : Bool} {hold : Bool} {bi : Nat}

/-- The control is idle: a call does nothing. -/
theorem release_ok (h : AtRest s) : Spec.release ⟨s, { opr := true, hld := hold }, bi⟩ = .ok ⟨{ s with tScan := scanNext s.tScan }, Bus.Spec.rest, bi⟩ := by
  unfold Spec.release
  have e : dev s { opr := true } 0 bi = .ok ({ s with tScan := scanNext s.tScan }, Bus.Spec.rest, bi) := by
    unfold dev
    rw [if_neg (by simp)]
    simp only [h.st, idle, scan_quiet (h.rdy _)]
    simp [h.request, h.stacked, idleSel, Bus.Spec.rest]
  exact poll_ok (by exact e)

theorem end_ok (h : Going s0 s u c d t .endAccept true σ de [] true) (hσ : σ < 256) (ha : s0.addr < 256) :
    ∃ s' bi', ((Bus.Spec.accept dev ⟨s, { opr := true, hld := hold, oprIn := true, staIn := true }, bi⟩ 0).bind Spec.release) = .ok ⟨s', Bus.Spec.rest, bi'⟩ ∧ After s0 s' u d t := by
  have hr : AtRest { s with status := 0, stacked := false, cmd := 0, cmdDone := false, busyFlag := false, st := .idle, selected := false } :=
    ⟨rfl, rfl, h.request, rfl, rfl, rfl, h.rdy, h.evs, h.scan, by show s.addr < 256; rw [h.addr]; exact ha, .inl h.statUnit⟩
  refine ⟨_, Bus.Spec.byte σ, ?_, hr.scan_to _ (scanNext_lt h.scan), h.addr, h.rew, h.run, h.drives⟩
  unfold Bus.Spec.accept
  have e1 : dev s { opr := true, hld := hold, oprIn := true, staIn := true, srv := true } 0 bi =
      .ok ({ s with status := 0, stacked := false, cmd := 0, cmdDone := false, busyFlag := false, st := .statusWait }, { opr := true, hld := hold, srv := true }, Bus.Spec.byte σ) := by
    unfold dev
    rw [if_neg (by simp)]
    simp only [h.st, endAccept, h.status, withPar_ok _ hσ, bk]
    simp [ended, h.cmdDone]
  rw [poll_ok (by exact e1), bk]
  have e2 : dev { s with status := 0, stacked := false, cmd := 0, cmdDone := false, busyFlag := false, st := .statusWait } { opr := true, hld := hold } 0 (Bus.Spec.byte σ) =
      .ok ({ s with status := 0, stacked := false, cmd := 0, cmdDone := false, busyFlag := false, st := .idle, selected := false }, { opr := true, hld := hold }, Bus.Spec.byte σ) := by
    unfold dev
    rw [if_neg (by simp)]
    simp [statusWait]
  rw [poll_ok (by exact e2), bk]
  exact release_ok hr

/-- A whole read command. -/
theorem perform_read (w : Spec.World) (hc : IsRead c) (hc8 : c < 256) (h : AtRest s) (hr : Ready s u d) {start : Tape → Tape.Res (St × Tape)} {t1 t3 : Tape} {r : St}
    (hs : ((c % 16 = 2 ∨ c % 16 = 6 ∨ c % 16 = 10 ∨ c % 16 = 14) ∧ start = Tape.readForw) ∨ (c % 16 = 12 ∧ start = Tape.readBack ∧ d.t.b.bot = false))
    (he : start d.t = .ok (r, t1)) (hf : r ≠ .fileError) (want : Nat) {bs : List Nat} {σ : Nat} (hσ : σ < 256)
    (hrec : ∀ (s' : S) (bi' : Nat), Going s s' u c d t1 .opr true 0 false [.tape u] false → ∃ s2, Spec.receive w w.rounds want ⟨s', conn w.hold, bi'⟩ =
        .ok (bs, ⟨s2, { opr := true, hld := w.hold, oprIn := true, staIn := true }, Bus.Spec.byte σ⟩) ∧ Going s s2 u c d t3 .endAccept true σ true [] true) :
    ∃ s' bi', Spec.perform w ⟨s, Bus.Spec.rest, bi⟩ u c want =
        .ok ({ initial := Bus.Spec.byte 0, data := bs, ending := some (Bus.Spec.byte σ) }, ⟨s', Bus.Spec.rest, bi'⟩) ∧ After s s' u d t3 := by
  obtain ⟨c0, c4, c3, c1⟩ := hc.facts
  obtain ⟨s1, e1, g1⟩ := start_read h hr hs he hf
  have e2 := select_ok h.free u c (by have := hr.lt; omega) hc8 w.hold bi e1 g1.st (by rw [g1.status]; decide)
  have hb : Bus.Spec.byte s1.status = Bus.Spec.byte 0 := by rw [g1.status]
  rw [hb] at e2
  obtain ⟨s2, b2, e3, g2⟩ := accept_opr (hold := w.hold) (bi := Bus.Spec.byte 0) g1 c0 c4
  obtain ⟨s3, e4, g3⟩ := hrec s2 b2 g2
  obtain ⟨s4, b4, e5, a⟩ := end_ok (hold := w.hold) (bi := Bus.Spec.byte σ) g3 hσ h.addr
  refine ⟨s4, b4, ?_, a⟩
  unfold Spec.perform
  rw [e2, bk, e3, bk, if_pos (by rfl), e4, bk]
  obtain ⟨L, e6, e7⟩ := bind_ok' e5
  rw [e6, bk, e7, bk]

end

end Verif.Mt
