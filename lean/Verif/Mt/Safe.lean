import Verif.Mt.Model
import Verif.Bus.Spec
import Verif.Tape.Props
/-!
# Every history of the 2415 (C48, C49)
-/
namespace Verif.Mt
open Verif.Bus
open Verif.Card (Res)
open Verif.Tape (Tape St Fmt)

/-! ## Histories -/

/-- What can happen to the control: the channel sets its lines and calls it, a pending event becomes due, the operator
presses a key of a drive. -/
inductive Op where
  | poll (t : Tags) (bo bi : Nat)
  | event (i fuel junk : Nat)
  | key (u : Nat) (k : Key)

def step (s : S) : Op → Res S
  | .poll t bo bi => (dev s t bo bi).bind fun r => .ok r.1
  | .event i fuel junk => fire fuel junk s i
  | .key u k => key s u k

def run : S → List Op → Res S
  | s, [] => .ok s
  | s, o :: os => (step s o).bind fun s => run s os

/-! ## Outcomes -/

/-- `P` holds of the result; the code does not leave its arrays unless `F`. -/
def Gd {α : Type} (F : Prop) (x : Res α) (P : α → Prop) : Prop :=
  match x with
  | .ok a => P a
  | .oob => F
  | .fuel => True

theorem Gd.bind {α β : Type} {F : Prop} {x : Res α} {g : α → Res β} {P : α → Prop} {Q : β → Prop} (h : Gd F x P) (hg : ∀ a, P a → Gd F (g a) Q) :
    Gd F (x.bind g) Q := by
  cases x with
  | ok a => exact hg a h
  | oob => exact h
  | fuel => trivial

theorem Gd.mono {α : Type} {F : Prop} {x : Res α} {P Q : α → Prop} (h : Gd F x P) (hg : ∀ a, P a → Q a) : Gd F x Q := by
  cases x with
  | ok a => exact hg a h
  | oob => exact h
  | fuel => trivial

theorem up_gd {α : Type} {F : Prop} {x : Tape.Res α} {P : α → Prop} (h : Tape.Good True x P) : Gd F (up x) P := by
  cases x with
  | ok a => exact h
  | oob => exact h.elim
  | hang => trivial

/-! ## The invariant -/

/-- The unit an event belongs to. -/
def Ev.unit : Ev → Nat
  | .rewind u => u
  | .done u => u
  | .tape u => u

/-- What every step keeps.  `pr u = some f`: drive `u` carries a tape mounted without the ring, with content `f`.
`F`: units the control does not have may be addressed. -/
structure Inv (F : Prop) (a : Nat) (pr : Nat → Option (List Nat)) (s : S) : Prop where
  len : s.drives.length = 6
  tapes : ∀ u d, s.drives[u]? = some (some d) → Tape.Inv (pr u) d.t.b
  inst : ∀ u, u < 6 → (F ∧ pr u = none) ∨ ∃ d, s.drives[u]? = some (some d)
  evs : F ∨ ∀ e ∈ s.evs, e.unit < 6
  cur : F ∨ s.curUnit < 6
  scan : s.tScan < 6
  status : s.status < 256
  data : s.data < 256
  se0 : s.se0 < 256
  addr : s.addr = a

theorem or8 {a b : Nat} (h : a < 256) (h' : b < 256) : a ||| b < 256 := Nat.or_lt_two_pow (n := 8) h h'
theorem and8 {a : Nat} (h : a < 256) (b : Nat) : a &&& b < 256 := Nat.lt_of_le_of_lt Nat.and_le_left h
theorem and8' {a b : Nat} (h : b < 256) : a &&& b < 256 := Nat.lt_of_le_of_lt Nat.and_le_right h

section
variable {F : Prop} {a : Nat} {pr : Nat → Option (List Nat)} {s : S}

/-- Nothing the invariant looks at but the small numbers changes. -/
theorem Inv.next {s' : S} (h : Inv F a pr s) (e1 : s'.drives = s.drives) (e2 : s'.evs = s.evs) (e3 : F ∨ s'.curUnit < 6) (e4 : s'.tScan < 6)
    (e5 : s'.status < 256) (e6 : s'.data < 256) (e7 : s'.se0 < 256) (e8 : s'.addr = s.addr := by rfl) : Inv F a pr s' :=
  ⟨by rw [e1]; exact h.len, by rw [e1]; exact h.tapes, by rw [e1]; exact h.inst, by rw [e2]; exact h.evs, e3, e4, e5, e6, e7, e8.trans h.addr⟩

theorem Inv.addEv (h : Inv F a pr s) (e : Ev) (he : F ∨ e.unit < 6) : Inv F a pr (addEv s e) :=
  ⟨h.len, h.tapes, h.inst, by
    rcases h.evs with q | q
    · exact .inl q
    · rcases he with p | p
      · exact .inl p
      · right
        intro e' he'
        rcases List.mem_append.1 he' with r | r
        · exact q e' r
        · rw [List.mem_singleton.1 r]; exact p,
    h.cur, h.scan, h.status, h.data, h.se0, h.addr⟩

theorem Inv.setDrive (h : Inv F a pr s) (u : Nat) (d : Drive) (hd : Tape.Inv (pr u) d.t.b) : Inv F a pr (setDrive s u d) := by
  refine ⟨?_, ?_, ?_, h.evs, h.cur, h.scan, h.status, h.data, h.se0, h.addr⟩
  · show (s.drives.set u (some d)).length = 6
    rw [List.length_set]; exact h.len
  · intro v d' hv
    change (s.drives.set u (some d))[v]? = _ at hv
    rw [List.getElem?_set] at hv
    by_cases q : u = v
    · subst q
      rw [if_pos rfl] at hv
      split at hv
      · simp only [Option.some.injEq] at hv; subst hv; exact hd
      · cases hv
    · rw [if_neg q] at hv; exact h.tapes v d' hv
  · intro v hv
    rcases h.inst v hv with q | q
    · exact .inl q
    · right
      show ∃ d', (s.drives.set u (some d))[v]? = _
      rw [List.getElem?_set]
      by_cases p : u = v
      · subst p; exact ⟨d, by rw [if_pos rfl, if_pos (by rw [h.len]; exact hv)]⟩
      · rw [if_neg p]; exact q

theorem Inv.setTape (h : Inv F a pr s) (u : Nat) (d : Drive) (t : Tape) (hd : Tape.Inv (pr u) t.b) : Inv F a pr (setTape s u d t) :=
  h.setDrive u _ hd

theorem Inv.drive (h : Inv F a pr s) (u : Nat) (hu : F ∨ u < 6) : Gd F (drive s u) (fun d => Tape.Inv (pr u) d.t.b) := by
  unfold Mt.drive
  cases e : s.drives[u]? with
  | none =>
    rcases hu with q | q
    · exact q
    · exfalso
      rw [List.getElem?_eq_none_iff, h.len] at e
      omega
  | some o =>
    cases o with
    | none =>
      rcases hu with p | p
      · exact p
      · rcases h.inst u p with q | ⟨d, hd⟩
        · exact q.1
        · rw [e] at hd; simp at hd
    | some d => exact h.tapes u d e

theorem Inv.nine (h : Inv F a pr s) (u : Nat) (hu : F ∨ u < 6) : Gd F (nine s u) (fun _ => True) := by
  unfold Mt.nine
  cases e : s.drives[u]? with
  | none =>
    rcases hu with q | q
    · exact q
    · exfalso
      rw [List.getElem?_eq_none_iff, h.len] at e
      omega
  | some o => cases o <;> trivial

/-! ### The tape layer -/

theorem tok {p : Option (List Nat)} {t : Tape} (h : Tape.Inv p t.b) : Tape.TOk p t.fmt t := ⟨h, rfl⟩

theorem Tape.Good.inv {α : Type} {p : Option (List Nat)} {f : Fmt} {x : Tape.Res (α × Tape)} (h : Tape.Good True x (fun r => Tape.TOk p f r.2)) :
    Tape.Good True x (fun r => Tape.Inv p r.2.b) := by
  cases x with
  | ok a => exact h.1
  | oob => exact h
  | hang => trivial

theorem writeFrame_gd {p : Option (List Nat)} {t : Tape} (h : Tape.Inv p t.b) (x : Nat) : Gd F (up (Tape.writeFrame t x)) (fun r => Tape.Inv p r.2.b) :=
  up_gd (Tape.Good.inv (Tape.writeFrame_good True x (tok h)))
theorem finishRec_gd {p : Option (List Nat)} {t : Tape} (h : Tape.Inv p t.b) (fuel junk : Nat) : Gd F (up (Tape.finishRec fuel junk t)) (fun r => Tape.Inv p r.2.b) :=
  up_gd (Tape.Good.inv (Tape.finishRec_good True (fun _ => trivial) fuel junk (tok h)))
theorem writeStart_gd {p : Option (List Nat)} {t : Tape} (h : Tape.Inv p t.b) : Gd F (up (Tape.writeStart t)) (fun r => Tape.Inv p r.2.b) :=
  up_gd (Tape.Good.inv (Tape.writeStart_good True (tok h)))
theorem writeMark_gd {p : Option (List Nat)} {t : Tape} (h : Tape.Inv p t.b) : Gd F (up (Tape.writeMark t)) (fun r => Tape.Inv p r.2.b) :=
  up_gd (Tape.Good.inv (Tape.writeMark_good True (tok h)))
theorem readForw_gd {p : Option (List Nat)} {t : Tape} (h : Tape.Inv p t.b) : Gd F (up (Tape.readForw t)) (fun r => Tape.Inv p r.2.b) :=
  up_gd (Tape.Good.inv (Tape.readForw_good True (tok h)))
theorem readBack_gd {p : Option (List Nat)} {t : Tape} (h : Tape.Inv p t.b) : Gd F (up (Tape.readBack t)) (fun r => Tape.Inv p r.2.b) :=
  up_gd (Tape.Good.inv (Tape.readBack_good True (tok h)))
theorem readFrame_gd {p : Option (List Nat)} {t : Tape} (h : Tape.Inv p t.b) (x : Nat) : Gd F (up (Tape.readFrame t x)) (fun r => Tape.Inv p r.2.2.b) := by
  have := Tape.readFrame_good True x (tok h)
  refine up_gd (?_ : Tape.Good True _ _)
  cases e : Tape.readFrame t x with
  | ok a => rw [e] at this; exact this.1
  | oob => rw [e] at this; exact this
  | hang => trivial

/-! ### The callbacks -/

theorem rewound_inv (h : Inv F a pr s) (u : Nat) (d : Drive) (hd : Tape.Inv (pr u) d.t.b) : Inv F a pr (rewound s u d) := by
  unfold rewound
  split
  · have h1 := h.setDrive u (unmount d) (Tape.detach_good (tok hd)).1
    exact ⟨h1.len, h1.tapes, h1.inst, h1.evs, h1.cur, h1.scan, h1.status, h1.data, h1.se0, h1.addr⟩
  · split
    · exact h.next rfl rfl h.cur h.scan (and8' (by decide)) h.data h.se0
    · exact h.next rfl rfl h.cur h.scan h.status h.data h.se0

theorem rewindCb_gd (h : Inv F a pr s) (u : Nat) (hu : F ∨ u < 6) : Gd F (rewindCb s u) (Inv F a pr) := by
  unfold rewindCb
  refine (h.drive u hu).bind fun d hd => ?_
  have hr := (Tape.rewindFrames_good (if d.t.posFrame ≤ 96000 then 1 else 3840) (tok hd)).1
  generalize Tape.rewindFrames d.t (if d.t.posFrame ≤ 96000 then 1 else 3840) = r at hr
  show Inv F a pr (if r.1 = .bot then _ else _)
  split
  · exact rewound_inv (h.setTape u d _ hr) u { d with t := _ } hr
  · exact (h.setTape u d _ hr).addEv (.rewind u) hu

theorem doneCb_inv (h : Inv F a pr s) (u : Nat) : Inv F a pr (doneCb s u) :=
  h.next rfl rfl h.cur h.scan (or8 h.status (by decide)) h.data h.se0

theorem parityTab_lt (x : Nat) : parityTab.getD (x &&& 0o77) 0 < 256 := by
  have k : ∀ y : Fin 64, parityTab.getD y.val 0 < 256 := by decide +kernel
  have hx : x &&& 0o77 < 64 := Nat.lt_of_le_of_lt Nat.and_le_right (by decide)
  exact k ⟨_, hx⟩

theorem bcdTab_lt (x : Nat) : bcdToEbcdicTab.getD (x &&& 0o77) 0 < 256 := by
  have k : ∀ y : Fin 64, bcdToEbcdicTab.getD y.val 0 < 256 := by decide +kernel
  have hx : x &&& 0o77 < 64 := Nat.lt_of_le_of_lt Nat.and_le_right (by decide)
  exact k ⟨_, hx⟩

theorem frame7_lt (x : Nat) : frame7 x < 256 := or8 (and8' (by decide)) (parityTab_lt x)

theorem convLast_inv (h : Inv F a pr s) : Inv F a pr (convLast s) := by
  unfold convLast
  split <;> exact h.next rfl rfl h.cur h.scan h.status (frame7_lt _) h.se0

theorem writeEnd_gd (h : Inv F a pr s) (fuel junk u : Nat) (hu : F ∨ u < 6) : Gd F (writeEnd fuel junk s u) (Inv F a pr) := by
  unfold writeEnd
  refine (h.nine _ h.cur).bind fun n _ => (h.drive u hu).bind fun d hd => ?_
  have h1 : Inv F a pr (if n = false ∧ tst s.mode7 mtConv then convLast s else s) := by
    split
    · exact convLast_inv h
    · exact h
  refine Gd.bind (P := Inv F a pr) h1 fun s1 h1 => ?_
  have h2 : Gd F (if n = false ∧ tst s1.mode7 mtConv ∧ s1.dataRdy then up (Tape.writeFrame d.t s1.data) else .ok (.ok, d.t)) (fun r => Tape.Inv (pr u) r.2.b) := by
    split
    · exact writeFrame_gd hd _
    · exact hd
  refine h2.bind fun r hr => (finishRec_gd hr fuel junk).bind fun q hq => ?_
  exact (h1.setTape u d _ hq).addEv _ hu

theorem convOut_inv (h : Inv F a pr s) : Inv F a pr (convOut s) := by
  unfold convOut
  split
  · split
    · exact h.next rfl rfl h.cur h.scan h.status (Nat.lt_of_le_of_lt (Nat.shiftRight_le _ _) h.data) h.se0
    · exact h.next rfl rfl h.cur h.scan h.status (Nat.mod_lt _ (by decide)) h.se0
    · exact h.next rfl rfl h.cur h.scan h.status (Nat.mod_lt _ (by decide)) h.se0
    · exact h.next rfl rfl h.cur h.scan h.status (Nat.mod_lt _ (by decide)) h.se0
    · exact h
  · exact h

theorem out7_inv (h : Inv F a pr s) : Inv F a pr (out7 s) := by
  unfold out7
  have h1 : Inv F a pr (if tst s.mode7 mtTrans then { s with data := ((s.data &&& 0x30) ^^^ 0x30) ||| (s.data &&& 0xf), dataRdy := true } else s) := by
    split
    · refine h.next rfl rfl h.cur h.scan h.status (or8 ?_ (and8' (by decide))) h.se0
      exact Nat.xor_lt_two_pow (n := 8) (and8' (by decide)) (by decide)
    · exact h
  have h2 := convOut_inv h1
  exact h2.next rfl rfl h2.cur h2.scan h2.status (frame7_lt _) h2.se0

theorem writeCb_gd (h : Inv F a pr s) (fuel junk u : Nat) (hu : F ∨ u < 6) : Gd F (writeCb fuel junk s u) (Inv F a pr) := by
  unfold writeCb
  split
  · exact writeEnd_gd h fuel junk u hu
  · split
    · refine (h.nine _ h.cur).bind fun n _ => ?_
      have h1 : Inv F a pr { s with se0 := s.se0 &&& 0xfd } := h.next rfl rfl h.cur h.scan h.status h.data (and8' (by decide))
      refine Gd.bind (P := Inv F a pr) h1 fun s1 h1 => ?_
      split
      · exact (out7_inv h1).addEv _ hu
      · refine (h1.drive u hu).bind fun d hd => (writeFrame_gd hd _).bind fun r hr => ?_
        have h2 := h1.setTape u d _ hr
        exact (h2.next (s' := { setTape s1 u d r.2 with dataRdy := true }) rfl rfl h2.cur h2.scan h2.status h2.data h2.se0).addEv _ hu
    · exact (h.next (s' := { s with se0 := s.se0 ||| eOvrRun, dataEnd := true }) rfl rfl h.cur h.scan h.status h.data (or8 h.se0 (by decide))).addEv _ hu

theorem convEnd_inv (h : Inv F a pr s) : Inv F a pr (convEnd s) := by
  unfold convEnd
  split
  · exact h.next rfl rfl h.cur h.scan h.status h.data h.se0
  · exact h.next rfl rfl h.cur h.scan h.status (and8' (by decide)) h.se0
  · exact h.next rfl rfl h.cur h.scan h.status (and8' (by decide)) h.se0
  · exact h

theorem convIn_inv (h : Inv F a pr s) : Inv F a pr (convIn s) := by
  unfold convIn
  split
  · exact h.next rfl rfl h.cur h.scan h.status h.data h.se0
  · exact h.next rfl rfl h.cur h.scan h.status (and8' (by decide)) h.se0
  · exact h.next rfl rfl h.cur h.scan h.status (and8' (by decide)) h.se0
  · exact h.next rfl rfl h.cur h.scan h.status (and8' (by decide)) h.se0
  · exact h

theorem in7_inv (h : Inv F a pr s) : Inv F a pr (in7 s) := by
  unfold in7
  have h1 : Inv F a pr (if parityTab.getD (s.data &&& 0o77) 0 ^^^ (s.data &&& 0o100) = 0 then { s with se0 := eDcChk, se3 := eVcr } else s) := by
    split
    · exact h.next rfl rfl h.cur h.scan h.status h.data (by show eDcChk < 256; decide)
    · exact h
  generalize (if parityTab.getD (s.data &&& 0o77) 0 ^^^ (s.data &&& 0o100) = 0 then ({ s with se0 := eDcChk, se3 := eVcr } : S) else s) = s1 at h1
  have h2 : Inv F a pr { s1 with data := if tst s1.mode7 mtTrans then bcdToEbcdicTab.getD (s1.data &&& 0o77) 0 else s1.data &&& 0o77 } := by
    refine h1.next rfl rfl h1.cur h1.scan h1.status ?_ h1.se0
    show (if _ then _ else _) < _
    split
    · exact bcdTab_lt _
    · exact and8' (by decide)
  dsimp only
  split
  · exact convIn_inv h2
  · exact h2

theorem readSkip_gd (h : Inv F a pr s) (fuel junk u : Nat) (hu : F ∨ u < 6) : Gd F (readSkip fuel junk s u) (Inv F a pr) := by
  unfold readSkip
  refine (h.drive u hu).bind fun d hd => (readFrame_gd hd _).bind fun r hr => ?_
  split
  · refine (finishRec_gd hr fuel junk).bind fun q hq => ?_
    have h2 := h.setTape u d _ hq
    exact (h2.next (s' := { setTape s u d q.2 with data := r.2.1 % 256, status := s.status ||| sChnEnd }) rfl rfl h2.cur h2.scan (or8 h.status (by decide)) (Nat.mod_lt _ (by decide)) h2.se0).addEv _ hu
  · have h2 := h.setTape u d _ hr
    exact (h2.next (s' := { setTape s u d r.2.2 with data := r.2.1 % 256 }) rfl rfl h2.cur h2.scan h2.status (Nat.mod_lt _ (by decide)) h2.se0).addEv _ hu

theorem readNext_inv (h : Inv F a pr s) (u : Nat) (hu : F ∨ u < 6) (n : Bool) (r : St) : Inv F a pr (readNext s u n r) := by
  have h0 := h.addEv (.tape u) hu
  have hend : ∀ s1, Inv F a pr s1 → Inv F a pr { s1 with dataEnd := true } := fun s1 h1 => h1.next rfl rfl h1.cur h1.scan h1.status h1.data h1.se0
  have e : Inv F a pr ((fun s : S => { s with dataEnd := true }) (if n = false ∧ tst s.mode7 mtConv then convEnd (addEv s (.tape u)) else addEv s (.tape u))) := by
    apply hend
    split
    · exact convEnd_inv h0
    · exact h0
  cases r with
  | fileError => exact h
  | parity => exact h
  | wrp => exact h
  | eot => exact e
  | bot => exact e
  | eob => exact e
  | mark =>
    exact (h.next (s' := { s with dataEnd := true, mrk := upd s.mrk s.curUnit true, status := s.status ||| (sUnitExp ||| sChnEnd) }) rfl rfl h.cur h.scan (or8 h.status (by decide)) h.data h.se0).addEv _ hu
  | ok =>
    show Inv F a pr (if n then _ else _)
    split
    · exact h0.next rfl rfl h0.cur h0.scan h0.status h0.data h0.se0
    · exact in7_inv h0

theorem readCb_gd (h : Inv F a pr s) (fuel junk u : Nat) (hu : F ∨ u < 6) : Gd F (readCb fuel junk s u) (Inv F a pr) := by
  unfold readCb
  split
  · exact readSkip_gd h fuel junk u hu
  · split
    · exact (h.next (s' := { s with dataEnd := true, se0 := s.se0 ||| eOvrRun, status := s.status ||| (sChnEnd ||| sUnitChk) }) rfl rfl h.cur h.scan (or8 h.status (by decide)) h.data (or8 h.se0 (by decide))).addEv _ hu
    · refine (h.drive u hu).bind fun d hd => (h.nine _ h.cur).bind fun n _ => (readFrame_gd hd _).bind fun r hr => ?_
      have h2 := h.setTape u d _ hr
      exact readNext_inv (h2.next (s' := { setTape s u d r.2.2 with data := r.2.1 % 256 }) rfl rfl h2.cur h2.scan h2.status (Nat.mod_lt _ (by decide)) h2.se0) u hu n r.1

theorem status_or {s1 : S} (h : Inv F a pr s1) (x : Nat) (hx : x < 256) : Inv F a pr { s1 with status := s1.status ||| x } :=
  h.next rfl rfl h.cur h.scan (or8 h.status hx) h.data h.se0

theorem spaceEob_gd (h : Inv F a pr s) (fuel junk u : Nat) (hu : F ∨ u < 6) (d : Drive) (hd : Tape.Inv (pr u) d.t.b) : Gd F (spaceEob fuel junk s u d) (Inv F a pr) := by
  unfold spaceEob
  refine (finishRec_gd hd fuel junk).bind fun r hr => ?_
  have h2 := h.setTape u d _ hr
  split
  · exact (status_or h2 sUnitChk (by decide)).addEv _ hu
  · split
    · have h3 : Gd F (up (if tst s.cmd 0x10 then Tape.readForw r.2 else Tape.readBack r.2)) (fun q => Tape.Inv (pr u) q.2.b) := by
        split
        · exact readForw_gd hr
        · exact readBack_gd hr
      refine h3.bind fun q hq => ?_
      have h4 := h.setTape u d _ hq
      show Inv F a pr _
      split
      · exact (status_or h4 sUnitChk (by decide)).addEv _ hu
      · split
        · exact h4.addEv _ hu
        · exact h4.addEv _ hu
    · split
      · exact (status_or h2 sUnitExp (by decide)).addEv _ hu
      · exact h2.addEv _ hu

theorem spaceCb_gd (h : Inv F a pr s) (fuel junk u : Nat) (hu : F ∨ u < 6) : Gd F (spaceCb fuel junk s u) (Inv F a pr) := by
  unfold spaceCb
  refine (h.drive u hu).bind fun d hd => (readFrame_gd hd _).bind fun r hr => ?_
  have h2 := h.setTape u d _ hr
  have h3 : Inv F a pr { setTape s u d r.2.2 with data := r.2.1 % 256 } := h2.next rfl rfl h2.cur h2.scan h2.status (Nat.mod_lt _ (by decide)) h2.se0
  refine Gd.bind (P := Inv F a pr) h3 fun s1 h3 => ?_
  split
  · exact (status_or h3 sUnitChk (by decide)).addEv _ hu
  · exact spaceEob_gd h3 fuel junk u hu _ hr
  · refine (finishRec_gd hr fuel junk).bind fun q hq => ?_
    have h4 := h3.setTape u d _ hq
    show Inv F a pr _
    split
    · exact h4.addEv _ hu
    · exact (h4.next (s' := { setTape s1 u d q.2 with mrk := upd s1.mrk s1.curUnit true, status := s1.status ||| sUnitExp }) rfl rfl h4.cur h4.scan (or8 h3.status (by decide)) h4.data h4.se0).addEv _ hu
  · exact h3.addEv _ hu
  · exact h3

theorem motionCb_gd (h : Inv F a pr s) (fuel junk u : Nat) (hu : F ∨ u < 6) : Gd F (motionCb fuel junk s u) (Inv F a pr) := by
  unfold motionCb
  split
  · refine (h.drive u hu).bind fun d hd => ?_
    have h2 := (h.setTape u d _ (Tape.startRewind_good (tok hd)).1).addEv (.rewind u) hu
    exact h2.next rfl rfl h2.cur h2.scan (by show sCtlEnd ||| sDevEnd ||| sUnitChk < 256; decide) h2.data h2.se0
  · split
    · refine (h.drive u hu).bind fun d hd => ?_
      have h2 := (h.setTape u d _ (Tape.startRewind_good (tok hd)).1).addEv (.rewind u) hu
      refine Gd.bind (P := Inv F a pr) (h2.next rfl rfl h2.cur h2.scan h2.status h2.data h2.se0) fun s1 h3 => ?_
      show Inv F a pr _
      split
      · exact h3.next rfl rfl h3.cur h3.scan (or8 h3.status (by decide)) h3.data h3.se0
      · exact h3
    · split
      · exact h.addEv _ hu
      · split
        · exact (h.drive u hu).bind fun d hd => (writeMark_gd hd).bind fun r hr => (h.setTape u d _ hr).addEv _ hu
        · split
          · exact spaceCb_gd h fuel junk u hu
          · exact h

theorem tapeCb_gd (h : Inv F a pr s) (fuel junk u : Nat) (hu : F ∨ u < 6) : Gd F (tapeCb fuel junk s u) (Inv F a pr) := by
  unfold tapeCb
  split
  · exact writeCb_gd h fuel junk u hu
  · split
    · exact readCb_gd h fuel junk u hu
    · split
      · exact motionCb_gd h fuel junk u hu
      · exact h

theorem fire_gd (h : Inv F a pr s) (fuel junk i : Nat) : Gd F (fire fuel junk s i) (Inv F a pr) := by
  unfold fire
  split
  · exact h
  · rename_i e he
    have h1 : Inv F a pr { s with evs := s.evs.eraseIdx i } :=
      ⟨h.len, h.tapes, h.inst, h.evs.imp id (fun q e' he' => q e' (List.mem_of_mem_eraseIdx he')), h.cur, h.scan, h.status, h.data, h.se0, h.addr⟩
    have hu : F ∨ e.unit < 6 := h.evs.imp id (fun q => q e (List.mem_of_getElem? he))
    cases e with
    | rewind u => exact rewindCb_gd h1 u hu
    | done u => exact doneCb_inv h1 u
    | tape u => exact tapeCb_gd h1 fuel junk u hu

/-! ### Commands -/

theorem clear_inv (h : Inv F a pr s) : Inv F a pr (clear s) := h.next rfl rfl h.cur h.scan h.status h.data (by show 0 < 256; decide)

theorem setSe0 {s1 : S} (h : Inv F a pr s1) (x : Nat) (hx : x < 256) : Inv F a pr { s1 with se0 := x } := h.next rfl rfl h.cur h.scan h.status h.data hx

theorem setEnd {s1 : S} (h : Inv F a pr s1) : Inv F a pr { s1 with dataEnd := true } := h.next rfl rfl h.cur h.scan h.status h.data h.se0

theorem begin_inv (h : Inv F a pr s) : Inv F a pr (begin s) := by
  have h1 := h.addEv (.tape s.curUnit) h.cur
  exact h1.next rfl rfl h1.cur h1.scan h1.status h1.data h1.se0

theorem setBusy (h : Inv F a pr s) : Inv F a pr { s with status := sBusy } := h.next rfl rfl h.cur h.scan (by show sBusy < 256; decide) h.data h.se0

theorem cmdWrite_gd (h : Inv F a pr s) : Gd F (cmdWrite s) (Inv F a pr) := by
  unfold cmdWrite
  split
  · exact setBusy h
  · refine (h.drive _ h.cur).bind fun d hd => ?_
    split
    · exact setSe0 (clear_inv h) _ (by decide)
    · split
      · exact setSe0 (clear_inv h) _ (by decide)
      · refine (writeStart_gd hd).bind fun r hr => ?_
        have h2 := (clear_inv h).setTape s.curUnit d _ hr
        show Inv F a pr _
        split
        · exact begin_inv (h2.next rfl rfl h2.cur h2.scan h2.status h2.data (by show eWcZero < 256; decide))
        · exact setSe0 h2 _ (by decide)
        · exact setSe0 h2 _ (by decide)

theorem started_inv (h : Inv F a pr s) (u : Nat) (d : Drive) (r : St × Tape) (hr : Tape.Inv (pr u) r.2.b) : Inv F a pr (started s u d r) := by
  unfold started
  have h2 := h.setTape u d _ hr
  split
  · exact setSe0 h2 _ (by decide)
  · exact begin_inv h2

theorem cmdRead_gd (h : Inv F a pr s) : Gd F (cmdRead s) (Inv F a pr) := by
  unfold cmdRead
  split
  · exact setBusy h
  · refine (h.drive _ h.cur).bind fun d hd => ?_
    split
    · exact setSe0 (clear_inv h) _ (by decide)
    · exact (readForw_gd hd).bind fun r hr => started_inv (clear_inv h) _ d r hr

theorem atLoad_inv (h : Inv F a pr s) : Inv F a pr (atLoad s) := h.next rfl rfl h.cur h.scan (or8 h.status (by decide)) h.data h.se0

theorem cmdReadBack_gd (h : Inv F a pr s) : Gd F (cmdReadBack s) (Inv F a pr) := by
  unfold cmdReadBack
  split
  · exact setBusy h
  · refine (h.drive _ h.cur).bind fun d hd => ?_
    split
    · exact setSe0 (clear_inv h) _ (by decide)
    · split
      · exact atLoad_inv (clear_inv h)
      · exact (readBack_gd hd).bind fun r hr => started_inv (clear_inv h) _ d r hr

theorem cmdMode_inv (h : Inv F a pr s) : Inv F a pr (cmdMode s) := by
  unfold cmdMode
  split
  · exact h.next rfl rfl h.cur h.scan (by show sBusy < 256; decide) h.data h.se0
  · split <;> exact h.next rfl rfl h.cur h.scan h.status h.data (by show 0 < 256; decide)

theorem cmdMotion_gd (h : Inv F a pr s) : Gd F (cmdMotion s) (Inv F a pr) := by
  unfold cmdMotion
  have hc := clear_inv h
  split
  · exact setBusy h
  · refine (h.drive _ h.cur).bind fun d hd => ?_
    split
    · exact setSe0 hc _ (by decide)
    · split
      · show Inv F a pr _
        split
        · exact setSe0 hc _ (by decide)
        · exact begin_inv (setEnd hc)
      · split
        · exact begin_inv (setEnd hc)
        · split
          · exact (readForw_gd hd).bind fun r hr => started_inv (setEnd hc) _ d r hr
          · split
            · split
              · exact atLoad_inv (setEnd hc)
              · exact (readBack_gd hd).bind fun r hr => started_inv (setEnd hc) _ d r hr
            · exact hc.next rfl rfl hc.cur hc.scan hc.status hc.data (by show eCmdRej < 256; decide)

theorem cmdTail_inv (h : Inv F a pr s) : Inv F a pr (cmdTail s) := by
  unfold cmdTail
  have h1 : Inv F a pr (if s.cmd ≠ 4 ∧ (s.se0 &&& 0xfd ≠ 0 ∨ tst s.se1 1) then
      { s with status := s.status ||| sUnitChk, cmd := 0, dataEnd := true, cmdDone := true } else s) := by
    split
    · exact h.next rfl rfl h.cur h.scan (or8 h.status (by decide)) h.data h.se0
    · exact h
  generalize (if s.cmd ≠ 4 ∧ (s.se0 &&& 0xfd ≠ 0 ∨ tst s.se1 1) then
      ({ s with status := s.status ||| sUnitChk, cmd := 0, dataEnd := true, cmdDone := true } : S) else s) = s1 at h1
  refine h1.next rfl rfl h1.cur h1.scan (or8 (or8 h1.status ?_) ?_) h1.data h1.se0
  · cases s1.dataEnd <;> decide
  · cases s1.cmdDone <;> decide

theorem deviceCmd_gd (h : Inv F a pr s) (c : Nat) : Gd F (deviceCmd s c) (Inv F a pr) := by
  unfold deviceCmd
  split
  · exact h.next rfl rfl h.cur h.scan (or8 h.status (by decide)) h.data h.se0
  · cases e : s.drives[s.curUnit]? with
    | none =>
      rcases h.cur with q | q
      · exact q
      · exfalso
        rw [List.getElem?_eq_none_iff, h.len] at e
        omega
    | some d =>
      have h1 : Inv F a pr (cmdPrep s d c) := h.next rfl rfl h.cur h.scan (by show 0 < 256; decide) h.data h.se0
      show Gd F (cmdSwitch (cmdPrep s d c)) _
      generalize cmdPrep s d c = s1 at h1
      unfold cmdSwitch
      split
      · exact h1
      · split
        · exact (cmdWrite_gd h1).bind fun a ha => cmdTail_inv ha
        · split
          · exact (cmdRead_gd h1).bind fun a ha => cmdTail_inv ha
          · split
            · exact (cmdReadBack_gd h1).bind fun a ha => cmdTail_inv ha
            · split
              · exact cmdTail_inv (h1.next rfl rfl h1.cur h1.scan h1.status h1.se0 h1.se0)
              · split
                · exact cmdTail_inv (cmdMode_inv h1)
                · split
                  · exact (cmdMotion_gd h1).bind fun a ha => cmdTail_inv ha
                  · exact cmdTail_inv (h1.next rfl rfl h1.cur h1.scan h1.status h1.data h1.se0)

/-! ### The bus -/

theorem withPar_gd {v : Nat} (hv : v < 256) {α : Type} {g : Nat → Res α} {P : α → Prop} (hg : ∀ b, Gd F (g b) P) : Gd F ((withPar v).bind g) P := by
  rw [withPar_ok v hv]; exact hg _

theorem scan_inv (h : Inv F a pr s) : Inv F a pr (scan s) := by
  unfold scan
  split
  · exact h.next rfl rfl h.cur h.scan h.status h.data h.se0
  · refine h.next rfl rfl h.cur ?_ h.status h.data h.se0
    show (if s.tScan + 1 ≥ 6 then 0 else s.tScan + 1) < 6
    have := h.scan
    split <;> omega

theorem busChk_inv (h : Inv F a pr s) : Inv F a pr { s with se0 := s.se0 ||| eBusChk } := setSe0 h _ (or8 h.se0 (by decide))

/-- A call of the bus function; `hb` says that no unit above 5 is addressed. -/
theorem dev_gd (h : Inv F a pr s) (t : Tags) (bo bi : Nat) (hb : F ∨ (t.adr = true → bo &&& 0xf8 = a &&& 0xf8 → bo % 8 < 6)) :
    Gd F (dev s t bo bi) (fun r => Inv F a pr r.1) := by
  unfold dev
  split
  · exact h.next rfl rfl h.cur h.scan h.status h.data (by show 0 < 256; decide)
  · have hS := h.status
    have hD := h.data
    split
    · -- idle
      show Inv F a pr (idle s t bo bi).1
      unfold idle
      split
      · exact h
      · have h1 := scan_inv h
        generalize scan s = s1 at h1
        dsimp only
        split
        · exact h1
        · have : ∀ t1 : Tags, t1.adr = t.adr → Inv F a pr (idleSel s1 t1 bo bi).1 := by
            intro t1 e
            unfold idleSel
            split
            · exact h1
            · split
              · rename_i ht
                split
                · rename_i hm
                  have hc : F ∨ bo % 8 < 6 := hb.imp id fun q => q (by rw [← e]; exact ht) (by rw [← h1.addr]; exact hm)
                  unfold addressed
                  have h2 : Inv F a pr (if parBad bo then { s1 with se0 := s1.se0 ||| eBusChk } else s1) := by
                    split
                    · exact busChk_inv h1
                    · exact h1
                  generalize (if parBad bo then ({ s1 with se0 := s1.se0 ||| eBusChk } : S) else s1) = s2 at h2
                  dsimp only
                  split
                  · exact h2.next rfl rfl h2.cur h2.scan h2.status h2.data h2.se0
                  · exact h2.next rfl rfl hc h2.scan h2.status h2.data h2.se0
                · exact h1
              · split
                · unfold polled
                  split
                  · exact h1.next rfl rfl (.inr h1.scan) h1.scan (or8 h1.status (by decide)) h1.data h1.se0
                  · exact h1.next rfl rfl h1.cur h1.scan h1.status h1.data h1.se0
                · exact h1
          exact this _ (by split <;> rfl)
    · show Inv F a pr (initSel s t).1
      unfold initSel
      split
      · exact h.next rfl rfl h.cur h.scan h.status h.data h.se0
      · exact h
    · unfold command
      have h0 : Inv F a pr { s with request := false } := h.next rfl rfl h.cur h.scan h.status h.data h.se0
      split
      · generalize ({ s with request := false } : S) = s1 at h0
        unfold command1
        split
        · exact h0.next rfl rfl h0.cur h0.scan (by show sChnEnd ||| sDevEnd ||| sUnitChk < 256; decide) h0.data (or8 h0.se0 (by decide))
        · split
          · show Inv F a pr _
            dsimp only
            split
            · exact h0.next rfl rfl h0.cur h0.scan h0.status h0.data h0.se0
            · refine h0.next rfl rfl h0.cur h0.scan ?_ h0.data h0.se0
              show (if _ then _ else _) < _
              split
              · decide
              · exact h0.status
          · split
            · refine (deviceCmd_gd (F := F) (pr := pr) (s := { s1 with st := .status }) ?_ _).bind fun a ha => ha
              exact h0.next rfl rfl h0.cur h0.scan h0.status h0.data h0.se0
            · exact h0.next rfl rfl h0.cur h0.scan h0.status h0.data h0.se0
      · split
        · refine h.next rfl rfl h.cur h.scan ?_ h.data h.se0
          show (if _ then _ else _) < _
          split
          · exact hS
          · exact or8 hS (by decide)
        · exact h0
    · exact withPar_gd hS fun b => h.next rfl rfl h.cur h.scan hS hD h.se0
    · refine withPar_gd hS fun b => ?_
      show Inv F a pr _
      split
      · exact h.next rfl rfl h.cur h.scan hS hD h.se0
      · split
        · unfold accepted
          split
          · exact h.next rfl rfl h.cur h.scan (by show 0 < 256; decide) hD h.se0
          · split <;> exact h.next rfl rfl h.cur h.scan (by show 0 < 256; decide) hD h.se0
        · split <;> exact h.next rfl rfl h.cur h.scan hS hD h.se0
    · show Inv F a pr (statusWait s t bi).1
      unfold statusWait
      split
      · exact h
      · split <;> exact h.next rfl rfl h.cur h.scan hS hD h.se0
    · show Inv F a pr (busy s t).1
      unfold busy
      split
      · dsimp only
        split
        · exact h.next rfl rfl h.cur h.scan (or8 hS (by decide)) hD h.se0
        · exact h.next rfl rfl h.cur h.scan hS hD h.se0
      · exact h
    · unfold endStatus
      split
      · exact h
      · exact withPar_gd hS fun b => h.next rfl rfl h.cur h.scan hS hD h.se0
    · refine withPar_gd hS fun b => ?_
      show Inv F a pr _
      split
      · exact h.next rfl rfl h.cur h.scan hS hD h.se0
      · split
        · unfold ended
          split
          · exact h.next rfl rfl h.cur h.scan (by show 0 < 256; decide) hD h.se0
          · split
            · exact h.next rfl rfl h.cur h.scan (by show 0 < 256; decide) hD h.se0
            · split <;> exact h.next rfl rfl h.cur h.scan (by show 0 < 256; decide) hD h.se0
        · exact h
    · show Inv F a pr (waitDevend s t bi).1
      unfold waitDevend
      dsimp only
      split
      · exact h.next rfl rfl h.cur h.scan hS hD h.se0
      · exact h
    · show Inv F a pr (opr s t bi).1
      unfold opr
      split
      · exact h.next rfl rfl h.cur h.scan (or8 hS (by decide)) hD h.se0
      · split
        · exact h.next rfl rfl h.cur h.scan hS hD h.se0
        · have h1 : Inv F a pr (oprSense { s with request := false }) := by
            unfold oprSense
            split
            · split
              · exact h.next rfl rfl h.cur h.scan hS (Nat.mod_lt _ (by decide)) h.se0
              · exact h.next rfl rfl h.cur h.scan (or8 hS (by decide)) hD h.se0
            · exact h.next rfl rfl h.cur h.scan hS hD h.se0
          generalize oprSense { s with request := false } = s1 at h1
          dsimp only
          split
          · exact h1.next rfl rfl h1.cur h1.scan (or8 h1.status (by decide)) h1.data h1.se0
          · exact h1
    · unfold data1
      split
      · exact h
      · exact withPar_gd hD fun b => h.next rfl rfl h.cur h.scan hS hD h.se0
    · refine withPar_gd hD fun b => ?_
      show Inv F a pr _
      split
      · have h1 : Inv F a pr (takeByte { s with dataRdy := false } bo) := by
          unfold takeByte
          split
          · split
            · exact h.next rfl rfl h.cur h.scan (or8 (or8 hS (by decide)) (by decide)) hD (or8 h.se0 (by decide))
            · exact h.next rfl rfl h.cur h.scan hS (Nat.mod_lt _ (by decide)) h.se0
          · exact h.next rfl rfl h.cur h.scan hS hD h.se0
        generalize takeByte { s with dataRdy := false } bo = s1 at h1
        dsimp only
        split
        · exact h1.next rfl rfl h1.cur h1.scan (by show sChnEnd < 256; decide) h1.data h1.se0
        · exact h1.next rfl rfl h1.cur h1.scan h1.status h1.data h1.se0
      · exact h

/-! ### The operator -/

theorem weak {p : Option (List Nat)} {b : Tape.Buf} (h : Tape.Inv p b) : Tape.Inv none b := ⟨h.blen, h.op, fun _ q => by cases q⟩

/-- A key; on a protected drive only the same tape is loaded, and without the ring. -/
theorem key_gd (h : Inv F a pr s) (u : Nat) (k : Key) (hu : F ∨ u < 6)
    (hk : ∀ same file f ring den g, k = .load same file f ring den → pr u = some g → file = g ∧ ring = false) : Gd F (key s u k) (Inv F a pr) := by
  cases k with
  | load same file f ring den =>
    refine (h.drive u hu).bind fun d hd => ?_
    show Inv F a pr _
    split
    · exact h
    · have hm : ∀ d' : Drive, Tape.Inv (pr u) d'.t.b → Tape.Inv (pr u) (mount d' file f ring den).t.b := by
        intro d' hd'
        have g := (Tape.attach_good (weak hd') file f ring den).1
        cases e : pr u with
        | none => exact weak g
        | some g' =>
          obtain ⟨rfl, rfl⟩ := hk same file f ring den g' rfl e
          exact g
      have hl : Tape.Inv (pr u) (loaded d same file f ring den).t.b := by
        unfold loaded
        have h1 : Tape.Inv (pr u) (if d.t.b.opened ∧ same = false then unmount d else d).t.b := by
          split
          · exact (Tape.detach_good (tok hd)).1
          · exact hd
        generalize (if d.t.b.opened ∧ same = false then unmount d else d) = d1 at h1
        dsimp only
        split
        · exact h1
        · exact hm _ h1
      have h2 := h.setDrive u (rewinding (loaded d same file f ring den)) (Tape.startRewind_good (tok hl)).1
      exact (h2.next (s' := { setDrive s u (rewinding (loaded d same file f ring den)) with rew := upd s.rew u true }) rfl rfl h2.cur h2.scan h2.status h2.data h2.se0).addEv _ hu
  | start =>
    refine (h.drive u hu).bind fun d hd => ?_
    show Inv F a pr _
    split
    · have h2 := h.setDrive u { d with online := true } hd
      exact h2.next rfl rfl h2.cur h2.scan h2.status h2.data h2.se0
    · exact h
  | unload =>
    refine (h.drive u hu).bind fun d hd => ?_
    show Inv F a pr _
    split
    · exact h
    · have h2 := h.setDrive u (rewinding d) (Tape.startRewind_good (tok hd)).1
      exact (h2.next (s' := { setDrive s u (rewinding d) with rew := upd s.rew u true, run := upd s.run u true }) rfl rfl h2.cur h2.scan h2.status h2.data h2.se0).addEv _ hu
  | reset => exact (h.drive u hu).bind fun d hd => h.setDrive u { d with online := false } hd
  | fin pos => exact (h.drive u hu).bind fun d hd => h.setTape u d { d.t with posFrame := pos } ⟨hd.blen, hd.op, hd.prot⟩

end

end Verif.Mt
