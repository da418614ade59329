import Verif.Mt.Space
/-!
# Channel programs on several tape drives
-/
namespace Verif.Mt
open Verif.Bus
open Verif.Card (Res)
open Verif.Tape (Tape St Fmt Z Item IsTE Rel)

/-! ## What the channel should see -/

namespace Spec

/-- A reel on a drive: what is behind the head, the nearest first, and what is ahead of it; whether the last operation went
forward over something. -/
structure Reel where
  before : List Item
  after : List Item
  forward : Bool

/-- The commands of a channel program. -/
inductive Cmd where
  | read (want : Nat)
  | readBack (want : Nat)
  | space
  | spaceBack
  | file
  | fileBack
  | mark
  | rewind
deriving DecidableEq

/-- The command byte. -/
def Cmd.code : Cmd → Nat
  | .read _ => 0x02
  | .readBack _ => 0x0c
  | .space => 0x37
  | .spaceBack => 0x27
  | .file => 0x3f
  | .fileBack => 0x2f
  | .mark => 0x1f
  | .rewind => 0x07

/-- The room for data. -/
def Cmd.want : Cmd → Nat
  | .read n => n
  | .readBack n => n
  | _ => 0

/-- The records up to the next tape mark, and the rest. -/
def toMark : List Item → List Item × List Item
  | .data b :: l => (.data b :: (toMark l).1, (toMark l).2)
  | l => ([], l)

/-- What has to be on the tape: something to read, a tape mark to stop at; for a tape mark the ring, and the head must not have
come from reading forward. -/
def Cmd.can (ring : Bool) (r : Reel) : Cmd → Prop
  | .read _ | .space => r.after ≠ []
  | .readBack _ | .spaceBack | .fileBack => r.before ≠ []
  | .file => .mark ∈ r.after
  | .mark => ring = true ∧ r.forward = false
  | .rewind => True

/-- Where the reel is afterwards. -/
def Cmd.effect (r : Reel) : Cmd → Reel
  | .read _ | .space => ⟨r.after.take 1 ++ r.before, r.after.tail, true⟩
  | .readBack _ | .spaceBack => ⟨r.before.tail, r.before.take 1 ++ r.after, false⟩
  | .file => ⟨((toMark r.after).1 ++ (toMark r.after).2.take 1).reverse ++ r.before, (toMark r.after).2.tail, true⟩
  | .fileBack => ⟨(toMark r.before).2.tail, ((toMark r.before).1 ++ (toMark r.before).2.take 1).reverse ++ r.after, false⟩
  | .mark => ⟨.mark :: r.before, [], false⟩
  | .rewind => ⟨[], r.before.reverse ++ r.after, false⟩

/-- A record under the head as the channel sees it: the bytes it wants, in the order they pass, then channel end and device end;
for a tape mark no byte, and unit exception. -/
def reads (back : Bool) (want : Nat) : Item → Result
  | .data bs => { initial := Bus.Spec.byte 0, data := ((if back then bs.reverse else bs).take want).map Bus.Spec.byte, ending := some (Bus.Spec.byte 0x0c) }
  | .mark => { initial := Bus.Spec.byte 0, data := [], ending := some (Bus.Spec.byte 0x0d) }

/-- A motion as the channel sees it: channel end at once, and the final status under the address of the unit. -/
def moves (addr u st : Nat) : Result :=
  { initial := Bus.Spec.byte 0x08, ending := some (Bus.Spec.byte st), under := some (Bus.Spec.byte ((addr &&& 0xf8) ||| u)) }

/-- Device end, with unit exception for a tape mark. -/
def spaced : Item → Nat
  | .data _ => 0x04
  | .mark => 0x05

def Cmd.result (addr u : Nat) (r : Reel) : Cmd → Result
  | .read n => reads false n (r.after.headD .mark)
  | .readBack n => reads true n (r.before.headD .mark)
  | .space => moves addr u (spaced (r.after.headD .mark))
  | .spaceBack => moves addr u (spaced (r.before.headD .mark))
  | _ => moves addr u 0x04

/-- What is on the drives: by unit, the ring and the reel. -/
abbrev Reels := Nat → Option (Bool × Reel)

/-- The reels after a command for unit `u`. -/
def after (R : Reels) (u : Nat) (c : Cmd) : Reels := fun v => if v = u then (R u).map fun q => (q.1, c.effect q.2) else R v

/-- A program that finds what it needs. -/
def Valid : Reels → List (Nat × Cmd) → Prop
  | _, [] => True
  | R, (u, c) :: l => (∃ q, R u = some q ∧ c.can q.1 q.2) ∧ Valid (after R u c) l

/-- Everything the channel should see. -/
def results (addr : Nat) : Reels → List (Nat × Cmd) → List Result
  | _, [] => []
  | R, (u, c) :: l => (match R u with | some q => c.result addr u q.2 | none => { initial := 0 }) :: results addr (after R u c) l

/-- The channel performs the commands one after the other, each with whatever timing and hold out up or not, and if only it
waits long enough it sees `rs` and in the end `P` holds. -/
def Sees (P : S → Prop) : List (Nat × Cmd) → Link → List Result → Prop
  | [], L, rs => rs = [] ∧ P L.s
  | (u, c) :: l, L, rs => ∃ n, ∀ w : World, n ≤ w.rounds → ∃ r L' rs', rs = r :: rs' ∧ perform w L u c.code c.want = .ok (r, L') ∧ Sees P l L' rs'

/-- Drive `u` is ready, nine track, not rewinding, and has the reel on. -/
def Holds (s : S) (u : Nat) (q : Bool × Reel) : Prop :=
  ∃ d f rest z, Ready s u d ∧ IsTE f ∧ Rel f q.1 rest d.t z ∧ z.before = q.2.before ∧ z.after = q.2.after ∧ z.eot = false ∧ z.justRead = q.2.forward

end Spec

/-! ## Rewinding and tape marks -/

/-- The tape is on its way to the load point. -/
structure Winding (s0 s : S) (u : Nat) (d : Drive) (t : Tape) : Prop where
  quiet : Quiet s
  selected : s.selected = false
  status : s.status = 4
  evs : s.evs = [.rewind u]
  cmdDone : s.cmdDone = true
  busyFlag : s.busyFlag = false
  curUnit : s.curUnit = u
  statUnit : s.statUnit = none
  addr : s.addr = s0.addr
  rew : s.rew = upd s0.rew u true
  run : s.run = s0.run
  drives : s.drives = s0.drives.set u (some { d with t := t })

section
variable {s0 s : S} {u : Nat} {d : Drive} {bi : Nat} (w : Spec.World) (hl : u < s0.drives.length)
include hl

theorem winding_last (hr : s0.rew u = false) (hn : s0.run u = false) {t : Tape} (k : Nat) (h : Winding s0 s u d t) (ho : t.b.opened = true)
    (q : t.posFrame < (if t.posFrame ≤ 96000 then 1 else 3840)) :
    ∃ k' s2, k ≤ k' ∧ Spec.attend w (k + 1) ⟨s, Bus.Spec.rest, bi⟩ = Spec.attend w k' ⟨s2, Bus.Spec.rest, bi⟩ ∧
      Done s0 s2 u d { t with b := { t.b with bot := true }, posFrame := 0 } 4 := by
  obtain ⟨j, hj, e⟩ := attend_tick w h.quiet bi k h.evs
  have hd : drive { s with tScan := j, evs := [] } u = .ok { d with t := t } := by
    show (match s.drives[u]? with | some (some d) => Res.ok d | _ => .oob) = _
    rw [h.drives, List.getElem?_set_self hl]
  refine ⟨k, { setTape { s with tScan := j, evs := [] } u { d with t := t } { t with b := { t.b with bot := true }, posFrame := 0 } with rew := upd s.rew u false, rdy := upd s.rdy u true }, Nat.le_refl _, e _ ?_, ?_⟩
  · show rewindCb _ _ = _
    unfold rewindCb Tape.rewindFrames
    rw [hd, bk, bk]
    simp only [ho, Bool.true_eq_false, if_false, if_pos q, if_true]
    unfold rewound
    rw [if_neg (by show ¬ s.run u = true; rw [h.run, hn]; decide), if_neg (by rintro ⟨-, q⟩; exact q h.quiet.st)]
    rfl
  · refine ⟨h.quiet.st, h.selected, h.status, rfl, .inl h.cmdDone, h.quiet.request, h.quiet.stacked, h.busyFlag, ?_, h.curUnit, h.statUnit, hj, h.addr, ?_, h.run, ?_⟩
    · intro v
      show upd s.rdy u true v = _
      unfold upd
      by_cases q : v = u
      · simp [q]
      · simp [q, h.quiet.rdy]
    · show upd s.rew u false = _
      rw [h.rew]
      funext v
      unfold upd
      by_cases q : v = u
      · simp [q, hr]
      · simp [q]
    · show s.drives.set u _ = _
      rw [h.drives, List.set_set]

theorem winding (hr : s0.rew u = false) (hn : s0.run u = false) : ∀ (m : Nat) {s : S} {t : Tape}, Winding s0 s u d t → t.b.opened = true → t.posFrame < (m : Int) →
    ∀ k, ∃ k' s2, k ≤ k' ∧ Spec.attend w (k + m + 1) ⟨s, Bus.Spec.rest, bi⟩ = Spec.attend w k' ⟨s2, Bus.Spec.rest, bi⟩ ∧
      Done s0 s2 u d { t with b := { t.b with bot := true }, posFrame := 0 } 4 := by
  intro m
  induction m with
  | zero =>
    intro s t h ho hm k
    exact winding_last w hl hr hn k h ho (by split <;> omega)
  | succ m ih =>
    intro s t h ho hm k
    by_cases q : t.posFrame < (if t.posFrame ≤ 96000 then 1 else 3840)
    · obtain ⟨k', s2, h1, h2, h3⟩ := winding_last (bi := bi) w hl hr hn (k + m + 1) h ho q
      exact ⟨k', s2, by omega, h2, h3⟩
    · obtain ⟨j, hj, e⟩ := attend_tick w h.quiet bi (k + m + 1) h.evs
      obtain ⟨k', s2, h1, h2, h3⟩ := ih (s := addEv (setTape { s with tScan := j, evs := [] } u { d with t := t } { t with posFrame := t.posFrame - (if t.posFrame ≤ 96000 then 1 else 3840) }) (.rewind u))
        (t := { t with posFrame := t.posFrame - (if t.posFrame ≤ 96000 then 1 else 3840) })
        ⟨⟨h.quiet.st, h.quiet.request, h.quiet.stacked, h.quiet.rdy, hj⟩, h.selected, h.status, rfl, h.cmdDone, h.busyFlag, h.curUnit, h.statUnit, h.addr, h.rew, h.run, by
          show s.drives.set u _ = _
          rw [h.drives, List.set_set]⟩ ho (by show t.posFrame - _ < (m : Int); split <;> omega) k
      refine ⟨k', s2, h1, ?_, h3⟩
      rw [← h2]
      apply e
      show rewindCb _ _ = _
      have hd : drive { s with tScan := j, evs := [] } u = .ok { d with t := t } := by
        show (match s.drives[u]? with | some (some d) => Res.ok d | _ => .oob) = _
        rw [h.drives, List.getElem?_set_self hl]
      unfold rewindCb Tape.rewindFrames
      rw [hd, bk, bk]
      simp only [ho, Bool.true_eq_false, if_false, if_neg q]
      rfl

/-- The rewind command. -/
theorem rewind_ok (hr : s0.rew u = false) (hn : s0.run u = false) {t t1 : Tape} (hch : s.chaining = false) (h : Going s0 s u 7 d t .idle false 0 true [.tape u] false)
    (hs : Tape.startRewind t = (.ok, t1)) (ho : t1.b.opened = true) (k : Nat) :
    ∃ k' s2, k ≤ k' ∧ Spec.attend w (k + t1.posFrame.toNat + 3) ⟨s, Bus.Spec.rest, bi⟩ = Spec.attend w k' ⟨s2, Bus.Spec.rest, bi⟩ ∧
      Done s0 s2 u d { t1 with b := { t1.b with bot := true }, posFrame := 0 } 4 := by
  obtain ⟨s', g, hch', e⟩ := motion_tick (bi := bi) w h rfl (k + t1.posFrame.toNat + 2)
  have hw : Winding s0 { addEv (setTape s' u { d with t := t } t1) (.rewind u) with rew := upd s'.rew s'.curUnit true, dataEnd := true, cmdDone := true, status := s'.status ||| sDevEnd, cmd := 0 } u d t1 := by
    refine ⟨⟨g.st, g.request, g.stacked, g.rdy, g.scan⟩, g.selected, ?_, ?_, rfl, g.busyFlag, g.curUnit, g.statUnit, g.addr, ?_, g.run, ?_⟩
    · show s'.status ||| sDevEnd = _
      rw [g.status]; rfl
    · show s'.evs ++ [.rewind u] = _
      rw [g.evs]; rfl
    · show upd s'.rew s'.curUnit true = _
      rw [g.rew, g.curUnit]
    · show s'.drives.set u _ = _
      rw [g.drives, List.set_set]
  obtain ⟨k', s2, h1, h2, h3⟩ := winding (bi := bi) w hl hr hn (t1.posFrame.toNat + 1) hw ho (by omega) k
  refine ⟨k', s2, h1, ?_, h3⟩
  rw [← h2]
  apply e
  show tapeCb _ _ _ _ = _
  unfold tapeCb motionCb
  rw [g.cmd, if_neg (by decide), if_neg (by decide), if_pos (by decide), if_neg (by decide), if_pos (by decide), g.drive hl, bk]
  simp only [hs, bk]
  rw [if_pos (by show s'.chaining = false; rw [hch', hch])]
  rfl

/-- The write tape mark command. -/
theorem mark_ok {t t1 : Tape} (h : Going s0 s u 0x1f d t .idle false 0 true [.tape u] false) (hs : Tape.writeMark t = .ok (.ok, t1)) (k : Nat) :
    ∃ s1, Spec.attend w (k + 1) ⟨s, Bus.Spec.rest, bi⟩ = Spec.attend w k ⟨s1, Bus.Spec.rest, bi⟩ ∧ Going s0 s1 u 0x1f d t1 .idle false 0 true [.done u] false := by
  obtain ⟨s', g, -, e⟩ := motion_tick (bi := bi) w h rfl k
  refine ⟨_, e (addEv (setTape s' u { d with t := t } t1) (.done u)) ?_, ?_⟩
  · show tapeCb _ _ _ _ = _
    unfold tapeCb motionCb
    rw [g.cmd, if_neg (by decide), if_neg (by decide), if_pos (by decide), if_neg (by decide), if_neg (by decide), if_neg (by decide), if_pos (by decide), g.drive hl, bk]
    simp only [hs, up, bk]
  · refine ⟨g.st, g.selected, g.status, g.dataEnd, ?_, g.cmdDone, g.request, g.stacked, g.busyFlag, g.cmd, g.dataRdy, g.se0, g.rdy, g.curUnit, g.statUnit, g.scan, g.addr, g.rew, g.run, ?_⟩
    · show s'.evs ++ [.done u] = _
      rw [g.evs]; rfl
    · show s'.drives.set u _ = _
      rw [g.drives, List.set_set]

end

/-! ## The commands -/

theorem toMark_eq : ∀ l : List Item, ∃ rs, (Spec.toMark l).1 = Records rs ∧ l = Records rs ++ (Spec.toMark l).2 ∧ ((Spec.toMark l).2 = [] ∨ ∃ r, (Spec.toMark l).2 = .mark :: r)
  | [] => ⟨[], rfl, rfl, .inl rfl⟩
  | .mark :: l => ⟨[], rfl, rfl, .inr ⟨l, rfl⟩⟩
  | .data b :: l => by
    obtain ⟨rs, h1, h2, h3⟩ := toMark_eq l
    refine ⟨b :: rs, ?_, ?_, h3⟩
    · show Item.data b :: (Spec.toMark l).1 = _
      rw [h1]; rfl
    · show Item.data b :: l = Item.data b :: (Records rs ++ (Spec.toMark l).2)
      rw [← h2]

/-- What a command leaves. -/
theorem After.holds {s s' : S} {u : Nat} {d : Drive} {t : Tape} {f : Fmt} {rg : Bool} {rest : List Nat} {z : Z} (a : After s s' u d t) (hr : Ready s u d) (hf : IsTE f) (k : Rel f rg rest t z)
    (he : z.eot = false) : Spec.Holds s' u (rg, ⟨z.before, z.after, z.justRead⟩) ∧ ∀ v, v ≠ u → ∀ q, Spec.Holds s v q → Spec.Holds s' v q := by
  refine ⟨⟨{ d with t := t }, f, rest, z, ⟨hr.lt, ?_, k.drive.rep.opened, hr.online, hr.nine, by rw [a.rew]; exact hr.rew, by rw [a.run]; exact hr.run⟩, hf, k, rfl, rfl, he, rfl⟩, ?_⟩
  · rw [a.drives, List.getElem?_set_self (setAt hr.at')]
  · rintro v hv q ⟨d', f', rest', z', r', h1, h2, h3⟩
    refine ⟨d', f', rest', z', ⟨r'.lt, ?_, r'.opened, r'.online, r'.nine, by rw [a.rew]; exact r'.rew, by rw [a.run]; exact r'.run⟩, h1, h2, h3⟩
    rw [a.drives, List.getElem?_set_ne (Ne.symm hv)]
    exact r'.at'

/-- What has to be shown of a command. -/
def Good (s : S) (u : Nat) (q : Bool × Spec.Reel) (c : Spec.Cmd) : Prop :=
  ∃ n, ∀ (w : Spec.World), n ≤ w.rounds → ∀ bi, ∃ s' bi', Spec.perform w ⟨s, Bus.Spec.rest, bi⟩ u c.code c.want = .ok (c.result s.addr u q.2, ⟨s', Bus.Spec.rest, bi'⟩) ∧
    AtRest s' ∧ s'.addr = s.addr ∧ Spec.Holds s' u (q.1, c.effect q.2) ∧ ∀ v, v ≠ u → ∀ q, Spec.Holds s v q → Spec.Holds s' v q

theorem bytes_of_fit {f : Fmt} {bs : List Nat} (hf : IsTE f) (h : Tape.Fits f (.data bs)) : ∀ x ∈ bs, x < 256 := by
  obtain ⟨-, -, h⟩ := h
  rwa [if_neg (te_ne hf).2] at h

theorem exists_add {n m : Nat} (h : n ≤ m) : ∃ k, m = k + n := ⟨m - n, by omega⟩

section
variable {s : S} {u : Nat} {rg : Bool} {r : Spec.Reel} (h : AtRest s) (hh : Spec.Holds s u (rg, r))
include h hh

theorem good_read (n : Nat) (hc : r.after ≠ []) : Good s u (rg, r) (.read n) := by
  obtain ⟨d, f, rest, z, hr, hf, k, hb, ha, he, hj⟩ := hh
  obtain ⟨rb, ra, rf⟩ := r
  dsimp only at hb ha hj hc
  subst hb ha hj
  have hl := setAt hr.at'
  have hs : (2 % 16 = 2 ∨ 2 % 16 = 6 ∨ 2 % 16 = 10 ∨ 2 % 16 = 14) := by decide
  cases hz : z.after with
  | nil => exact absurd hz hc
  | cons i l =>
    cases i with
    | data bs =>
      refine ⟨bs.length + 3, fun w hw bi => ?_⟩
      obtain ⟨j, hj⟩ := exists_add hw
      obtain ⟨t1, t2, t3, rest', e1, hg, e3, hbot, k1⟩ := fwd_record hf k hz w.junk
      obtain ⟨s', bi', e, a⟩ := perform_read (bi := bi) (c := 2) (t3 := t3) w (.inl rfl) (by decide) h hr (.inl ⟨hs, rfl⟩) e1 (by decide) n (σ := 12) (by decide)
        (bs := (bs.take n).map Bus.Spec.byte) (fun s1 b1 g => by
          rw [hj, ← Nat.add_assoc]
          exact recv_record w (.inl rfl) hl j hr.nine e3 bs n g hg (bytes_of_fit hf (k.fitA _ (by rw [hz]; exact List.mem_cons_self))))
      obtain ⟨a1, a2⟩ := a.holds hr hf k1 he
      exact ⟨s', bi', by simp only [Spec.Cmd.result, hz]; exact e, a.rest, a.addr, by simp only [Spec.Cmd.effect, hz]; exact a1, a2⟩
    | mark =>
      refine ⟨2, fun w hw bi => ?_⟩
      obtain ⟨j, hj⟩ := exists_add hw
      obtain ⟨t1, t3, rest', rest'', e1, e2, e3, k1, k2⟩ := fwd_mark hf k hz w.junk
      obtain ⟨s', bi', e, a⟩ := perform_read (bi := bi) (c := 2) (t3 := t1) w (.inl rfl) (by decide) h hr (.inl ⟨hs, rfl⟩) e1 (by decide) n (σ := 13) (by decide)
        (bs := []) (fun s1 b1 g => by
          rw [hj]
          exact recv_tm w (.inl rfl) hl j n hr.nine g e2)
      obtain ⟨a1, a2⟩ := a.holds hr hf k1 he
      exact ⟨s', bi', by simp only [Spec.Cmd.result, hz]; exact e, a.rest, a.addr, by simp only [Spec.Cmd.effect, hz]; exact a1, a2⟩

theorem good_readBack (n : Nat) (hc : r.before ≠ []) : Good s u (rg, r) (.readBack n) := by
  obtain ⟨d, f, rest, z, hr, hf, k, hb, ha, he, hj⟩ := hh
  obtain ⟨rb, ra, rf⟩ := r
  dsimp only at hb ha hj hc
  subst hb ha hj
  have hl := setAt hr.at'
  have hbot0 : d.t.b.bot = false := by
    cases q : d.t.b.bot with
    | false => rfl
    | true => exact absurd (k.bot q) hc
  have hz0 : ({ z with eot := false, justRead := false } : Z) = { z with justRead := false } := by rw [← he]
  cases hz : z.before with
  | nil => exact absurd hz hc
  | cons i l =>
    cases i with
    | data bs =>
      refine ⟨bs.reverse.length + 3, fun w hw bi => ?_⟩
      obtain ⟨j, hj⟩ := exists_add hw
      obtain ⟨t1, t2, t3, rest', e1, hg, e3, hbot, k1⟩ := bwd_record hf k hz w.junk
      obtain ⟨s', bi', e, a⟩ := perform_read (bi := bi) (c := 12) (t3 := t3) w (.inr (.inr (.inr (.inr rfl)))) (by decide) h hr (.inr ⟨rfl, rfl, hbot0⟩) e1 (by decide) n (σ := 12) (by decide)
        (bs := (bs.reverse.take n).map Bus.Spec.byte) (fun s1 b1 g => by
          rw [hj, ← Nat.add_assoc]
          exact recv_record w (.inr (.inr (.inr (.inr rfl)))) hl j hr.nine e3 bs.reverse n g hg
            (fun x hx => bytes_of_fit hf (k.fitB _ (by rw [hz]; exact List.mem_cons_self)) x (List.mem_reverse.1 hx)))
      obtain ⟨a1, a2⟩ := a.holds hr hf k1 rfl
      exact ⟨s', bi', by simp only [Spec.Cmd.result, hz]; exact e, a.rest, a.addr, by simp only [Spec.Cmd.effect, hz]; exact a1, a2⟩
    | mark =>
      refine ⟨2, fun w hw bi => ?_⟩
      obtain ⟨j, hj⟩ := exists_add hw
      obtain ⟨t1, t3, rest', rest'', e1, e2, e3, k1, k2⟩ := bwd_mark hf k hz w.junk
      obtain ⟨s', bi', e, a⟩ := perform_read (bi := bi) (c := 12) (t3 := t1) w (.inr (.inr (.inr (.inr rfl)))) (by decide) h hr (.inr ⟨rfl, rfl, hbot0⟩) e1 (by decide) n (σ := 13) (by decide)
        (bs := []) (fun s1 b1 g => by
          rw [hj]
          exact recv_tm w (.inr (.inr (.inr (.inr rfl)))) hl j n hr.nine g e2)
      obtain ⟨a1, a2⟩ := a.holds hr hf k1 rfl
      exact ⟨s', bi', by simp only [Spec.Cmd.result, hz]; exact e, a.rest, a.addr, by simp only [Spec.Cmd.effect, hz]; exact a1, a2⟩

theorem good_space (hc : r.after ≠ []) : Good s u (rg, r) .space := by
  obtain ⟨d, f, rest, z, hr, hf, k, hb, ha, he, hj⟩ := hh
  obtain ⟨rb, ra, rf⟩ := r
  dsimp only at hb ha hj hc
  subst hb ha hj
  have hl := setAt hr.at'
  have hsp : IsSpace 0x37 := .inl rfl
  cases hz : z.after with
  | nil => exact absurd hz hc
  | cons i l =>
    cases i with
    | data bs =>
      refine ⟨6 + 1 + 1 + bs.length, fun w hw bi => ?_⟩
      obtain ⟨j, hj⟩ := exists_add hw
      obtain ⟨t1, t2, t3, rest', e1, hg, e3, hbot, k1⟩ := fwd_record hf k hz w.junk
      obtain ⟨s1, e4, g1⟩ := start_space (c := 0x37) h hr (.inl ⟨.inl rfl, rfl⟩) e1 (by decide)
      obtain ⟨s', bi', e, a⟩ := perform_motion (bi := bi) (t3 := t3) w (by decide) (by decide) h hr e4 g1 (σ := 4) (by decide) (by decide) 0 (fun s1 b1 _ g => by
        rw [hj, show j + (6 + 1 + 1 + bs.length) = j + 6 + 1 + 1 + bs.length by omega]
        obtain ⟨s2, a1, g2, q2⟩ := space_frames (bi := b1) w hsp hl (j + 6 + 1 + 1) bs g hg
        obtain ⟨s3, a2, g3⟩ := space_block (bi := b1) w hsp hl (by decide) g2 q2 e3 hbot (j + 6 + 1)
        obtain ⟨s4, a3, g4⟩ := motion_done (bi := b1) w g3 (by decide) (j + 6)
        exact ⟨s4, j, b1, by rw [a1, a2, a3], g4⟩)
      obtain ⟨a1, a2⟩ := a.holds hr hf k1 he
      exact ⟨s', bi', by simp only [Spec.Cmd.result, hz]; exact e, a.rest, a.addr, by simp only [Spec.Cmd.effect, hz]; exact a1, a2⟩
    | mark =>
      refine ⟨6 + 1 + 1, fun w hw bi => ?_⟩
      obtain ⟨j, hj⟩ := exists_add hw
      obtain ⟨t1, t3, rest', rest'', e1, e2, e3, k1, k2⟩ := fwd_mark hf k hz w.junk
      obtain ⟨s1, e4, g1⟩ := start_space (c := 0x37) h hr (.inl ⟨.inl rfl, rfl⟩) e1 (by decide)
      obtain ⟨s', bi', e, a⟩ := perform_motion (bi := bi) (t3 := t3) w (by decide) (by decide) h hr e4 g1 (σ := 5) (by decide) (by decide) 0 (fun s1 b1 _ g => by
        rw [hj, show j + (6 + 1 + 1) = j + 6 + 1 + 1 by omega]
        obtain ⟨s3, a2, g3⟩ := space_mark (bi := b1) w hsp hl g e2 e3 (j + 6 + 1)
        obtain ⟨s4, a3, g4⟩ := motion_done (bi := b1) w g3 (by decide) (j + 6)
        exact ⟨s4, j, b1, by rw [a2, a3], g4⟩)
      obtain ⟨a1, a2⟩ := a.holds hr hf k2 he
      exact ⟨s', bi', by simp only [Spec.Cmd.result, hz]; exact e, a.rest, a.addr, by simp only [Spec.Cmd.effect, hz]; exact a1, a2⟩

theorem good_spaceBack (hc : r.before ≠ []) : Good s u (rg, r) .spaceBack := by
  obtain ⟨d, f, rest, z, hr, hf, k, hb, ha, he, hj⟩ := hh
  obtain ⟨rb, ra, rf⟩ := r
  dsimp only at hb ha hj hc
  subst hb ha hj
  have hl := setAt hr.at'
  have hsp : IsSpace 0x27 := .inr (.inr (.inl rfl))
  have hbot0 : d.t.b.bot = false := by
    cases q : d.t.b.bot with
    | false => rfl
    | true => exact absurd (k.bot q) hc
  cases hz : z.before with
  | nil => exact absurd hz hc
  | cons i l =>
    cases i with
    | data bs =>
      refine ⟨6 + 1 + 1 + bs.reverse.length, fun w hw bi => ?_⟩
      obtain ⟨j, hj⟩ := exists_add hw
      obtain ⟨t1, t2, t3, rest', e1, hg, e3, hbot, k1⟩ := bwd_record hf k hz w.junk
      obtain ⟨s1, e4, g1⟩ := start_space (c := 0x27) h hr (.inr (.inl ⟨.inl rfl, rfl, hbot0⟩)) e1 (by decide)
      obtain ⟨s', bi', e, a⟩ := perform_motion (bi := bi) (t3 := t3) w (by decide) (by decide) h hr e4 g1 (σ := 4) (by decide) (by decide) 0 (fun s1 b1 _ g => by
        rw [hj, show j + (6 + 1 + 1 + bs.reverse.length) = j + 6 + 1 + 1 + bs.reverse.length by omega]
        obtain ⟨s2, a1, g2, q2⟩ := space_frames (bi := b1) w hsp hl (j + 6 + 1 + 1) bs.reverse g hg
        obtain ⟨s3, a2, g3⟩ := space_block (bi := b1) w hsp hl (by decide) g2 q2 e3 hbot (j + 6 + 1)
        obtain ⟨s4, a3, g4⟩ := motion_done (bi := b1) w g3 (by decide) (j + 6)
        exact ⟨s4, j, b1, by rw [a1, a2, a3], g4⟩)
      obtain ⟨a1, a2⟩ := a.holds hr hf k1 rfl
      exact ⟨s', bi', by simp only [Spec.Cmd.result, hz]; exact e, a.rest, a.addr, by simp only [Spec.Cmd.effect, hz]; exact a1, a2⟩
    | mark =>
      refine ⟨6 + 1 + 1, fun w hw bi => ?_⟩
      obtain ⟨j, hj⟩ := exists_add hw
      obtain ⟨t1, t3, rest', rest'', e1, e2, e3, k1, k2⟩ := bwd_mark hf k hz w.junk
      obtain ⟨s1, e4, g1⟩ := start_space (c := 0x27) h hr (.inr (.inl ⟨.inl rfl, rfl, hbot0⟩)) e1 (by decide)
      obtain ⟨s', bi', e, a⟩ := perform_motion (bi := bi) (t3 := t3) w (by decide) (by decide) h hr e4 g1 (σ := 5) (by decide) (by decide) 0 (fun s1 b1 _ g => by
        rw [hj, show j + (6 + 1 + 1) = j + 6 + 1 + 1 by omega]
        obtain ⟨s3, a2, g3⟩ := space_mark (bi := b1) w hsp hl g e2 e3 (j + 6 + 1)
        obtain ⟨s4, a3, g4⟩ := motion_done (bi := b1) w g3 (by decide) (j + 6)
        exact ⟨s4, j, b1, by rw [a2, a3], g4⟩)
      obtain ⟨a1, a2⟩ := a.holds hr hf k2 rfl
      exact ⟨s', bi', by simp only [Spec.Cmd.result, hz]; exact e, a.rest, a.addr, by simp only [Spec.Cmd.effect, hz]; exact a1, a2⟩

theorem good_file (hc : .mark ∈ r.after) : Good s u (rg, r) .file := by
  obtain ⟨d, f, rest, z, hr, hf, k, hb, ha, he, hj⟩ := hh
  obtain ⟨rb, ra, rf⟩ := r
  dsimp only at hb ha hj hc
  subst hb ha hj
  have hl := setAt hr.at'
  obtain ⟨rs, m1, m2, m3⟩ := toMark_eq z.after
  obtain ⟨l, hm⟩ : ∃ l, (Spec.toMark z.after).2 = .mark :: l := by
    rcases m3 with q | q
    · rw [q, List.append_nil] at m2
      rw [m2] at hc
      obtain ⟨x, -, hx⟩ := List.mem_map.1 hc
      cases hx
    · exact q
  rw [hm] at m2
  refine ⟨6 + 1 + cost rs, fun w hw bi => ?_⟩
  obtain ⟨j, hj⟩ := exists_add hw
  obtain ⟨q, t1, e1, hq, hgo⟩ := file_forward (s0 := s) (u := u) (c := 0x3f) (d := d) (σ := 0) w hl hf rfl l rs k m2
  obtain ⟨s1, e4, g1⟩ := start_space (c := 0x3f) h hr (.inl ⟨.inr rfl, rfl⟩) e1 (by rcases hq with q | ⟨q, -⟩ <;> rw [q] <;> decide)
  have hfin : ∀ (s1 : S) (b1 : Nat), Going s s1 u 0x3f d t1 .idle false 0 true [.tape u] false →
      ∃ s2 r t4 rest', Spec.attend w w.rounds ⟨s1, Bus.Spec.rest, b1⟩ = Spec.attend w (r + 6) ⟨s2, Bus.Spec.rest, b1⟩ ∧ Done s s2 u d t4 4 ∧
        Rel f rg rest' t4 { z with before := .mark :: ((Records rs).reverse ++ z.before), after := l, justRead := true } := by
    intro s1 b1 g
    rw [hj, ← Nat.add_assoc]
    obtain ⟨s2, k', t4, rest', hk, a1, g2, k2⟩ := hgo (j + (6 + 1)) s1 b1 g
    obtain ⟨i, rfl⟩ := exists_add hk
    obtain ⟨s3, a2, g3⟩ := motion_done (bi := b1) w g2 (by decide) (i + j + 6)
    exact ⟨s3, i + j, t4, rest', by rw [a1, ← a2]; congr 1, g3, k2⟩
  obtain ⟨s', bi', t4, e, a, rest', k2⟩ := perform_motion' (bi := bi) w (by decide) (by decide) h hr e4 g1 (σ := 4) (by decide) (by decide) 0
    (P := fun t4 => ∃ rest', Rel f rg rest' t4 { z with before := .mark :: ((Records rs).reverse ++ z.before), after := l, justRead := true })
    (fun s1 b1 _ g => by
      obtain ⟨s2, r, t4, rest', a1, a2, a3⟩ := hfin s1 b1 g
      exact ⟨s2, r, b1, t4, a1, a2, rest', a3⟩)
  obtain ⟨a1, a2⟩ := a.holds hr hf k2 he
  refine ⟨s', bi', e, a.rest, a.addr, ?_, a2⟩
  have : ((Spec.toMark z.after).1 ++ (Spec.toMark z.after).2.take 1).reverse ++ z.before = .mark :: ((Records rs).reverse ++ z.before) := by
    rw [m1, hm]; simp
  show Spec.Holds s' u (rg, ⟨((Spec.toMark z.after).1 ++ (Spec.toMark z.after).2.take 1).reverse ++ z.before, (Spec.toMark z.after).2.tail, true⟩)
  rw [this, hm]
  exact a1

theorem good_fileBack (hc : r.before ≠ []) : Good s u (rg, r) .fileBack := by
  obtain ⟨d, f, rest, z, hr, hf, k, hb, ha, he, hj⟩ := hh
  obtain ⟨rb, ra, rf⟩ := r
  dsimp only at hb ha hj hc
  subst hb ha hj
  have hl := setAt hr.at'
  have hbot0 : d.t.b.bot = false := by
    cases q : d.t.b.bot with
    | false => rfl
    | true => exact absurd (k.bot q) hc
  obtain ⟨rs, m1, m2, m3⟩ := toMark_eq z.before
  refine ⟨6 + 1 + cost rs, fun w hw bi => ?_⟩
  obtain ⟨j, hj⟩ := exists_add hw
  obtain ⟨q, t1, e1, hq, hgo⟩ := file_backward (s0 := s) (u := u) (c := 0x2f) (d := d) (σ := 0) w hl hf rfl _ m3 rs k m2
  obtain ⟨s1, e4, g1⟩ := start_space (c := 0x2f) h hr (.inr (.inl ⟨.inr rfl, rfl, hbot0⟩)) e1 (by rcases hq with q | ⟨q | q, -⟩ <;> rw [q] <;> decide)
  obtain ⟨s', bi', t4, e, a, rest', k2⟩ := perform_motion' (bi := bi) w (by decide) (by decide) h hr e4 g1 (σ := 4) (by decide) (by decide) 0
    (P := fun t4 => ∃ rest', Rel f rg rest' t4 { z with before := (Spec.toMark z.before).2.tail, after := (Spec.toMark z.before).2.take 1 ++ ((Records rs).reverse ++ z.after), eot := false, justRead := false })
    (fun s1 b1 _ g => by
      rw [hj, ← Nat.add_assoc]
      obtain ⟨s2, k', t4, rest', hk, a1, g2, k2⟩ := hgo hc (j + (6 + 1)) s1 b1 g
      obtain ⟨i, rfl⟩ := exists_add hk
      obtain ⟨s3, a2, g3⟩ := motion_done (bi := b1) w g2 (by decide) (i + j + 6)
      exact ⟨s3, i + j, b1, t4, by rw [a1, ← a2]; congr 1, g3, rest', k2⟩)
  obtain ⟨a1, a2⟩ := a.holds hr hf k2 rfl
  refine ⟨s', bi', e, a.rest, a.addr, ?_, a2⟩
  have : ((Spec.toMark z.before).1 ++ (Spec.toMark z.before).2.take 1).reverse ++ z.after = (Spec.toMark z.before).2.take 1 ++ ((Records rs).reverse ++ z.after) := by
    rw [m1]
    rcases m3 with q | ⟨l, q⟩ <;> rw [q] <;> simp
  simp only [Spec.Cmd.effect, this]
  exact a1

theorem good_mark (hg : rg = true) (hc : r.forward = false) : Good s u (rg, r) .mark := by
  obtain ⟨d, f, rest, z, hr, hf, k, hb, ha, he, hj⟩ := hh
  obtain ⟨rb, ra, rf⟩ := r
  dsimp only at hb ha hj hc k
  subst hb ha hj hg
  have hl := setAt hr.at'
  refine ⟨6 + 1 + 1, fun w hw bi => ?_⟩
  obtain ⟨j, hj⟩ := exists_add hw
  obtain ⟨t1, rest', e1, k1⟩ := put_mark hf k hc
  obtain ⟨s1, e4, g1⟩ := start_space (c := 0x1f) (start := fun t => .ok (.ok, t)) h hr (.inr (.inr (.inr ⟨rfl, k.drive.ring, rfl⟩))) rfl (by decide)
  obtain ⟨s', bi', e, a⟩ := perform_motion (bi := bi) (t3 := t1) w (by decide) (by decide) h hr e4 g1 (σ := 4) (by decide) (by decide) 0 (fun s1 b1 _ g => by
    rw [hj, show j + (6 + 1 + 1) = j + 6 + 1 + 1 by omega]
    obtain ⟨s3, a2, g3⟩ := mark_ok (bi := b1) w hl g e1 (j + 6 + 1)
    obtain ⟨s4, a3, g4⟩ := motion_done (bi := b1) w g3 (by decide) (j + 6)
    exact ⟨s4, j, b1, by rw [a2, a3], g4⟩)
  obtain ⟨a1, a2⟩ := a.holds hr hf k1 he
  exact ⟨s', bi', e, a.rest, a.addr, a1, a2⟩

theorem good_rewind : Good s u (rg, r) .rewind := by
  obtain ⟨d, f, rest, z, hr, hf, k, hb, ha, he, hj⟩ := hh
  obtain ⟨rb, ra, rf⟩ := r
  dsimp only at hb ha hj k
  subst hb ha hj
  have hl := setAt hr.at'
  obtain ⟨t1, rest', e1, ho, k1⟩ := rewound_rel hf k he
  refine ⟨6 + t1.posFrame.toNat + 3, fun w hw bi => ?_⟩
  obtain ⟨j, hj⟩ := exists_add hw
  obtain ⟨s1, e4, g1⟩ := start_space (c := 0x07) (start := fun t => .ok (.ok, t)) h hr (.inr (.inr (.inl ⟨rfl, rfl⟩))) rfl (by decide)
  obtain ⟨s', bi', e, a⟩ := perform_motion (bi := bi) w (by decide) (by decide) h hr e4 g1 (σ := 4) (by decide) (by decide) 0 (fun s1 b1 hch g => by
    rw [hj, show j + (6 + t1.posFrame.toNat + 3) = j + 6 + t1.posFrame.toNat + 3 by omega]
    obtain ⟨k', s3, hk, a2, g3⟩ := rewind_ok (bi := b1) w hl hr.rew hr.run hch g e1 ho (j + 6)
    obtain ⟨i, rfl⟩ := exists_add hk
    exact ⟨s3, i + j, b1, by rw [a2, ← Nat.add_assoc], g3⟩)
  obtain ⟨a1, a2⟩ := a.holds hr hf k1 he
  exact ⟨s', bi', e, a.rest, a.addr, a1, a2⟩

end

theorem good {s : S} {u : Nat} {q : Bool × Spec.Reel} (h : AtRest s) (hh : Spec.Holds s u q) (c : Spec.Cmd) (hc : c.can q.1 q.2) : Good s u q c := by
  obtain ⟨rg, r⟩ := q
  cases c with
  | read n => exact good_read h hh n hc
  | readBack n => exact good_readBack h hh n hc
  | space => exact good_space h hh hc
  | spaceBack => exact good_spaceBack h hh hc
  | file => exact good_file h hh hc
  | fileBack => exact good_fileBack h hh hc
  | mark => exact good_mark h hh hc.1 hc.2
  | rewind => exact good_rewind h hh

/-- Several drives, any program. -/
theorem sees (l : List (Nat × Spec.Cmd)) : ∀ {s : S} {R : Spec.Reels} (bi : Nat), AtRest s → (∀ u q, R u = some q → Spec.Holds s u q) → Spec.Valid R l →
    Spec.Sees (fun s' => AtRest s' ∧ ∀ u q, l.foldl (fun R k => Spec.after R k.1 k.2) R u = some q → Spec.Holds s' u q) l ⟨s, Bus.Spec.rest, bi⟩ (Spec.results s.addr R l) := by
  induction l with
  | nil => intro s R bi h hR _; exact ⟨rfl, h, hR⟩
  | cons k l ih =>
    obtain ⟨u, c⟩ := k
    intro s R bi h hR hv
    obtain ⟨⟨q, hq, hc⟩, hv⟩ := hv
    obtain ⟨n, hn⟩ := good h (hR u q hq) c hc
    refine ⟨n, fun w hw => ?_⟩
    obtain ⟨s', bi', e, h', ha, h1, h2⟩ := hn w hw bi
    refine ⟨c.result s.addr u q.2, ⟨s', Bus.Spec.rest, bi'⟩, Spec.results s.addr (Spec.after R u c) l, ?_, e, ?_⟩
    · simp only [Spec.results, hq]
    · have hR' : ∀ v q', Spec.after R u c v = some q' → Spec.Holds s' v q' := by
        intro v q' hv'
        unfold Spec.after at hv'
        split at hv'
        · rename_i hvu
          subst hvu
          rw [hq] at hv'
          simp only [Option.map_some, Option.some.injEq] at hv'
          rw [← hv']; exact h1
        · rename_i hvu
          exact h2 v hvu q' (hR v q' hv')
      have := ih bi' h' hR' hv
      rw [ha] at this
      exact this

end Verif.Mt
