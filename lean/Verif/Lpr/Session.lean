import Verif.Lpr.Bounds
/-!
# A line written to the 1443 over the channel (C98)
-/
namespace Verif.Lpr
open Verif.Bus
open Verif.Card (Res)

namespace Spec

abbrev Link := Bus.Spec.Link S

/-- The channel waits, doing nothing, until the printer raises one of the lines `p` looks at. -/
def await (p : Tags → Bool) : Nat → Link → Res Link
  | 0, _ => .fuel
  | n + 1, L => if p L.t then .ok L else (Bus.Spec.poll dev L id 0).bind (await p n)

/-- The channel answers request in: select out and hold out, command out when the printer shows its address, and then hold
out goes down, as on the multiplexor channel. -/
def connect (L : Link) : Res Link :=
  (Bus.Spec.poll dev L (fun t => { t with sel := true, hld := true }) 0).bind fun L =>
  (Bus.Spec.poll dev L (fun t => { t with cmd := true }) (Bus.Spec.byte 0)).bind fun L =>
  Bus.Spec.poll dev L (fun t => { t with cmd := false, hld := false }) 0

/-- The channel waits until the printer wants a byte or shows its status, and connects it when it asks to be. -/
def attend (L : Link) : Res Link :=
  (await (fun t => t.srvIn || t.staIn || t.reqIn) 10 L).bind fun L =>
  (if L.t.reqIn then connect L else .ok L).bind fun L => await (fun t => t.srvIn || t.staIn) 10 L

/-- One byte given to the printer. -/
def give (L : Link) (v : Nat) : Res Link := (Bus.Spec.accept dev L (Bus.Spec.byte v)).bind attend

def gives (L : Link) : List Nat → Res Link
  | [] => .ok L
  | v :: vs => (give L v).bind fun L => gives L vs

/-- No more bytes: if another one is wanted, service in is answered by command out. -/
def finish (L : Link) : Res Link :=
  if L.t.srvIn then
    (Bus.Spec.poll dev L (fun t => { t with cmd := true }) (Bus.Spec.byte 0)).bind fun L =>
    (Bus.Spec.poll dev L (fun t => { t with cmd := false }) 0).bind attend
  else .ok L

/-- The motion ends. -/
def elapse (L : Link) : Link := ⟨fire L.s, L.t, L.bi⟩

/-- A whole write: initial selection, the bytes, channel end, and when the motion is over device end.  The three bytes are
what the channel sees as initial status, channel end status and device end status. -/
def write (L : Link) (cmd : Nat) (bs : List Nat) : Res ((Nat × Nat × Nat) × Link) :=
  (Bus.Spec.initialSelection dev L L.s.addr cmd true).bind fun L0 =>
  (Bus.Spec.poll dev L0 (fun t => { t with srv := true }) 0).bind fun L =>
  (Bus.Spec.poll dev L (fun t => { t with srv := false, hld := false }) 0).bind fun L =>
  (attend L).bind fun L => (gives L bs).bind fun L => (finish L).bind fun L1 =>
  (Bus.Spec.accept dev L1 0).bind fun L => (attend (elapse L)).bind fun L2 =>
  (Bus.Spec.accept dev L2 0).bind fun L => .ok ((L0.bi, L1.bi, L2.bi), L)

/-- A motion without printing: initial selection with channel end, and when the motion is over device end. -/
def control (L : Link) (cmd : Nat) : Res ((Nat × Nat) × Link) :=
  (Bus.Spec.initialSelection dev L L.s.addr cmd true).bind fun L0 =>
  (Bus.Spec.poll dev L0 (fun t => { t with srv := true }) 0).bind fun L =>
  (Bus.Spec.poll dev L (fun t => { t with srv := false, hld := false }) 0).bind fun L =>
  (attend (elapse L)).bind fun L2 => (Bus.Spec.accept dev L2 0).bind fun L => .ok ((L0.bi, L2.bi), L)

/-- The printer is at rest: no command going on, no status left over. (An event may be left over, `evs`.) -/
structure AtRest (s : S) : Prop where
  st : s.st = .idle
  addr : s.addr < 256
  selected : s.selected = false
  addressed : s.addressed = false
  stacked : s.stacked = false
  busyFlag : s.busyFlag = false
  len : s.buf.length = 144

end Spec

/-! ### Waiting -/

theorem await_stop {p : Tags → Bool} {n : Nat} {L : Spec.Link} (h : p L.t = true) : Spec.await p (n + 1) L = .ok L := by
  unfold Spec.await; rw [if_pos h]

theorem await_step {p : Tags → Bool} {n : Nat} {s s' : S} {t t' : Tags} {bi bi' : Nat} (h : p t = false) (e : dev s t 0 bi = .ok (s', t', bi')) :
    Spec.await p (n + 1) ⟨s, t, bi⟩ = Spec.await p n ⟨s', t', bi'⟩ := by
  rw [Spec.await, if_neg (by rw [h]; decide), poll_ok (f := id) (by exact e)]
  rfl

/-- The printer that wants the bus is connected. -/
theorem connect_ok (s : S) (bi : Nat) (hst : s.st = .req) :
    Spec.connect ⟨s, { opr := true, reqIn := true }, bi⟩ =
      Bus.Spec.poll dev ⟨{ s with selected := true, addressed := false, st := reqNext s }, { opr := true, hld := true, oprIn := true, cmd := true }, bytePar s.addr⟩ (fun t => { t with cmd := false, hld := false }) 0 := by
  unfold Spec.connect
  have e1 : dev s { opr := true, sel := true, hld := true, reqIn := true } 0 bi = .ok ({ s with addressed := true }, { opr := true, hld := true, oprIn := true, adrIn := true }, bytePar s.addr) := by
    unfold dev
    rw [if_neg (by decide)]
    simp [hst, req]
  rw [poll_ok (by exact e1), bk]
  have e2 : dev { s with addressed := true } { opr := true, hld := true, oprIn := true, adrIn := true, cmd := true } (Bus.Spec.byte 0) (bytePar s.addr) =
      .ok ({ s with selected := true, addressed := false, st := reqNext s }, { opr := true, hld := true, oprIn := true, cmd := true }, bytePar s.addr) := by
    unfold dev
    rw [if_neg (by decide)]
    simp [hst, req, reqNext]
  rw [poll_ok (by exact e2), bk]

/-- The printer asks for the bus. -/
theorem req_raise (s : S) (bi : Nat) (hst : s.st = .req) (ha : s.addressed = false) :
    dev s { opr := true } 0 bi = .ok ({ s with request := true }, { opr := true, reqIn := true }, bi) := by
  unfold dev
  rw [if_neg (by decide)]
  simp [hst, req, ha]

/-! ### Taking the bytes -/

/-- The line `bs` has been given and the next byte is wanted. -/
structure Taking (s0 s : S) (c : Nat) (bs : List Nat) : Prop where
  st : s.st = .dataI
  selected : s.selected = true
  addressed : s.addressed = false
  stacked : s.stacked = s0.stacked
  busyFlag : s.busyFlag = s0.busyFlag
  sense : s.sense = 0
  cmd : s.cmd = c
  status : s.status = 0
  dataRdy : s.dataRdy = true
  dataEnd : s.dataEnd = false
  feedDone : s.feedDone = false
  file : s.file = s0.file
  row : s.row = s0.row
  lpp : s.lpp = s0.lpp
  fcb : s.fcb = s0.fcb
  ready : s.ready = s0.ready
  addr : s.addr = s0.addr
  evs : s.evs = s0.evs
  len : s.buf.length = 144
  col : s.col = bs.length
  room : bs.length < 120
  buf : ∀ j, j < bs.length → s.buf[j]? = bs[j]?
  byte : ∀ v ∈ bs, v < 256
  cnt : s.cnt < 3

/-- The tags while a byte is wanted. -/
def wanted : Tags := { opr := true, oprIn := true, srvIn := true }

/-- From `STATE_OPR` with more to come to the next service in. -/
theorem attend_more (s : S) (bi : Nat) (hst : s.st = .opr) (ha : s.addressed = false) (hd : s.dataRdy = true) (he : s.dataEnd = false) (hc : tst s.cmd 1 = true) (hb : s.selected = b) :
    ∃ r bi', Spec.attend ⟨s, { opr := true, oprIn := b }, bi⟩ = .ok ⟨{ s with st := .dataI, selected := true, request := r }, wanted, bi'⟩ := by
  have e1 : ∀ b, s.selected = b → dev s { opr := true, oprIn := b } 0 bi = .ok ({ s with st := .dataI }, { opr := true, oprIn := b }, bi) := by
    intro b hb
    unfold dev
    rw [if_neg (by simp)]
    simp only [hst, opr, oprData, hd, hc, hb]
    cases b <;> simp
  unfold Spec.attend
  rw [await_step (by simp) (e1 b hb)]
  cases b with
  | true =>
    have e2 : dev { s with st := .dataI } { opr := true, oprIn := true } 0 bi = .ok ({ s with st := .dataI }, wanted, bi) := by
      unfold dev
      rw [if_neg (by simp)]
      simp [dataI, hb, wanted]
    rw [await_step (by simp) e2, await_stop (by rfl), bk, if_neg (by show ¬ (false = true); decide), bk, await_stop (by rfl)]
    refine ⟨s.request, bi, ?_⟩
    have : s = { s with selected := true } := by rw [← hb]
    rw [this]
  | false =>
    have e2 : dev { s with st := .dataI } { opr := true } 0 bi = .ok ({ s with st := .req }, { opr := true }, bi) := by
      unfold dev
      rw [if_neg (by simp)]
      simp [dataI, hb]
    have e3 := req_raise { s with st := .req } bi rfl ha
    rw [await_step (by simp) e2, await_step (by simp) e3, await_stop (by rfl), bk, if_pos (by rfl), connect_ok _ _ rfl]
    have e4 : dev { s with selected := true, addressed := false, request := true, st := reqNext { s with st := .req, request := true } } { opr := true, oprIn := true } 0 (bytePar s.addr) =
        .ok ({ s with selected := true, addressed := false, request := true, st := .dataI }, wanted, bytePar s.addr) := by
      unfold dev
      rw [if_neg (by simp)]
      simp [reqNext, he, hc, dataI, wanted]
    rw [poll_ok (by exact e4), bk, await_stop (by rfl)]
    refine ⟨true, bytePar s.addr, ?_⟩
    rw [← ha]

theorem tst1 {c : Nat} (h : c &&& 7 = 1) : tst c 1 = true ∧ c ≠ 0 ∧ c ≠ 4 := by
  have e : c % 8 = 1 := by rw [← h]; exact (Nat.and_two_pow_sub_one_eq_mod c 3).symm
  refine ⟨?_, by omega, by omega⟩
  have : c &&& 1 = c % 2 := Nat.and_two_pow_sub_one_eq_mod c 1
  unfold tst
  rw [this]
  have : c % 2 = 1 := by omega
  rw [this]
  decide

/-- A byte that does not fill the line. -/
theorem give_ok {s0 s : S} {c v : Nat} {bs : List Nat} (bi : Nat) (h : Taking s0 s c bs) (hc : c &&& 7 = 1) (hv : v < 256) (hr : bs.length < 119) :
    ∃ s' bi', Spec.give ⟨s, wanted, bi⟩ v = .ok ⟨s', wanted, bi'⟩ ∧ Taking s0 s' c (bs ++ [v]) := by
  obtain ⟨hc1, hc0, hc4⟩ := tst1 hc
  have hl : s.col < s.buf.length := by rw [h.col, h.len]; omega
  have hm := byte_mod v hv
  have hp := parBad_byte v hv
  have h120 : s.col + 1 ≠ 120 := by rw [h.col]; omega
  have fin : ∀ s' : S, (∃ b r n, n < 3 ∧ s' = { s with st := .dataI, selected := true, request := r, data := b, buf := s.buf.set s.col v, col := s.col + 1, cnt := n, dataRdy := true }) → Taking s0 s' c (bs ++ [v]) := by
    rintro s' ⟨b, r, n, hn, rfl⟩
    refine ⟨rfl, rfl, h.addressed, h.stacked, h.busyFlag, h.sense, h.cmd, h.status, rfl, h.dataEnd, h.feedDone, h.file, h.row, h.lpp, h.fcb, h.ready, h.addr, h.evs, ?_, ?_, ?_, ?_, ?_, hn⟩
    · show (s.buf.set s.col v).length = 144
      rw [List.length_set]; exact h.len
    · show s.col + 1 = (bs ++ [v]).length
      rw [List.length_append, h.col]; rfl
    · rw [List.length_append]; show bs.length + 1 < 120; omega
    · intro j hj
      rw [List.length_append] at hj
      change j < bs.length + 1 at hj
      show (s.buf.set s.col v)[j]? = _
      rw [h.col, List.getElem?_set]
      by_cases q : bs.length = j
      · rw [if_pos q, if_pos (by rw [h.len]; omega), ← q]
        simp
      · rw [if_neg q, h.buf j (by omega), List.getElem?_append_left (by omega)]
    · intro w hw
      rcases List.mem_append.1 hw with q | q
      · exact h.byte w q
      · rw [List.mem_singleton.1 q]; exact hv
  unfold Spec.give Bus.Spec.accept
  by_cases h3 : s.cnt + 1 = 3
  · have e1 : dev s { opr := true, oprIn := true, srvIn := true, srv := true } (Bus.Spec.byte v) bi =
        .ok ({ s with data := Bus.Spec.byte v, st := .initStat, buf := s.buf.set s.col v, col := s.col + 1, cnt := 0, dataRdy := true, selected := false }, { opr := true, srv := true }, bi) := by
      unfold dev
      rw [if_neg (by simp)]
      simp only [h.st, dataI, h.selected]
      simp [take, hp, hl, hm, h3, h120, h.selected]
    rw [poll_ok (by exact e1), bk]
    have e2 : dev { s with data := Bus.Spec.byte v, st := .initStat, buf := s.buf.set s.col v, col := s.col + 1, cnt := 0, dataRdy := true, selected := false } { opr := true } 0 bi =
        .ok ({ s with data := Bus.Spec.byte v, st := .opr, buf := s.buf.set s.col v, col := s.col + 1, cnt := 0, dataRdy := true, selected := false }, { opr := true }, bi) := by
      unfold dev
      rw [if_neg (by simp)]
      simp [initStat]
    rw [poll_ok (by exact e2), bk]
    obtain ⟨r, bi', e⟩ := attend_more (b := false) { s with data := Bus.Spec.byte v, st := .opr, buf := s.buf.set s.col v, col := s.col + 1, cnt := 0, dataRdy := true, selected := false } bi rfl h.addressed rfl h.dataEnd (by show tst s.cmd 1 = true; rw [h.cmd]; exact hc1) rfl
    exact ⟨_, bi', e, fin _ ⟨_, r, 0, by decide, rfl⟩⟩
  · have e1 : dev s { opr := true, oprIn := true, srvIn := true, srv := true } (Bus.Spec.byte v) bi =
        .ok ({ s with data := Bus.Spec.byte v, st := .initStat, buf := s.buf.set s.col v, col := s.col + 1, cnt := s.cnt + 1, dataRdy := true }, { opr := true, oprIn := true, srv := true }, bi) := by
      unfold dev
      rw [if_neg (by simp)]
      simp only [h.st, dataI, h.selected]
      simp [take, hp, hl, hm, h3, h120, h.selected]
    rw [poll_ok (by exact e1), bk]
    have e2 : dev { s with data := Bus.Spec.byte v, st := .initStat, buf := s.buf.set s.col v, col := s.col + 1, cnt := s.cnt + 1, dataRdy := true } { opr := true, oprIn := true } 0 bi =
        .ok ({ s with data := Bus.Spec.byte v, st := .opr, buf := s.buf.set s.col v, col := s.col + 1, cnt := s.cnt + 1, dataRdy := true }, { opr := true, oprIn := true }, bi) := by
      unfold dev
      rw [if_neg (by simp)]
      simp [initStat, h.selected, h.cmd, hc0, h.status]
    rw [poll_ok (by exact e2), bk]
    obtain ⟨r, bi', e⟩ := attend_more (b := true) { s with data := Bus.Spec.byte v, st := .opr, buf := s.buf.set s.col v, col := s.col + 1, cnt := s.cnt + 1, dataRdy := true } bi rfl h.addressed rfl h.dataEnd (by show tst s.cmd 1 = true; rw [h.cmd]; exact hc1) h.selected
    exact ⟨_, bi', e, fin _ ⟨_, r, s.cnt + 1, by have := h.cnt; omega, rfl⟩⟩

theorem gives_ok {s0 : S} {c : Nat} (hc : c &&& 7 = 1) (vs : List Nat) : ∀ {s : S} {bs : List Nat} (bi : Nat), Taking s0 s c bs → (∀ v ∈ vs, v < 256) → bs.length + vs.length < 120 →
    ∃ s' bi', Spec.gives ⟨s, wanted, bi⟩ vs = .ok ⟨s', wanted, bi'⟩ ∧ Taking s0 s' c (bs ++ vs) := by
  induction vs with
  | nil => intro s bs bi h _ _; exact ⟨s, bi, rfl, by rw [List.append_nil]; exact h⟩
  | cons v vs ih =>
    intro s bs bi h hv hr
    rw [List.length_cons] at hr
    obtain ⟨s1, b1, e1, k1⟩ := give_ok (v := v) bi h hc (hv v List.mem_cons_self) (by omega)
    obtain ⟨s2, b2, e2, k2⟩ := ih b1 k1 (fun w hw => hv w (List.mem_cons_of_mem _ hw)) (by rw [List.length_append]; show bs.length + 1 + vs.length < 120; omega)
    refine ⟨s2, b2, ?_, by rw [List.append_assoc] at k2; exact k2⟩
    unfold Spec.gives
    rw [e1, bk, e2]

/-! ### The end of the line -/

/-- The line is complete. -/
structure Full (s0 s : S) (c : Nat) (bs : List Nat) : Prop where
  st : s.st = .opr
  selected : s.selected = false
  addressed : s.addressed = false
  stacked : s.stacked = s0.stacked
  busyFlag : s.busyFlag = s0.busyFlag
  sense : s.sense = 0
  cmd : s.cmd = c
  status : s.status = 0
  dataRdy : s.dataRdy = false
  dataEnd : s.dataEnd = true
  feedDone : s.feedDone = false
  file : s.file = s0.file
  row : s.row = s0.row
  lpp : s.lpp = s0.lpp
  fcb : s.fcb = s0.fcb
  ready : s.ready = s0.ready
  addr : s.addr = s0.addr
  evs : s.evs = s0.evs
  len : s.buf.length = 144
  holds : Spec.Holds s bs

/-- The channel stops a line that is not full. -/
theorem stop_ok {s0 s : S} {c : Nat} {bs : List Nat} (bi : Nat) (h : Taking s0 s c bs) (hc : c &&& 7 = 1) :
    ∃ s', Spec.finish ⟨s, wanted, bi⟩ = Spec.attend ⟨s', { opr := true }, bi⟩ ∧ Full s0 s' c bs := by
  obtain ⟨hc1, hc0, hc4⟩ := tst1 hc
  unfold Spec.finish
  rw [if_pos (by rfl)]
  have e1 : dev s { opr := true, oprIn := true, srvIn := true, cmd := true } (Bus.Spec.byte 0) bi =
      .ok ({ s with dataRdy := false, dataEnd := true, st := .initStat }, { opr := true, oprIn := true, cmd := true }, bi) := by
    unfold dev
    rw [if_neg (by simp)]
    simp [h.st, dataI, h.selected]
  rw [poll_ok (by exact e1), bk]
  have e2 : dev { s with dataRdy := false, dataEnd := true, st := .initStat } { opr := true, oprIn := true } 0 bi =
      .ok ({ s with dataRdy := false, dataEnd := true, st := .opr, selected := false, addressed := false }, { opr := true }, bi) := by
    unfold dev
    rw [if_neg (by simp)]
    simp [initStat, h.selected, h.cmd, hc0, hc4, h.status]
  rw [poll_ok (by exact e2), bk]
  exact ⟨_, rfl, rfl, rfl, rfl, h.stacked, h.busyFlag, h.sense, h.cmd, h.status, rfl, rfl, h.feedDone, h.file, h.row, h.lpp, h.fcb, h.ready, h.addr, h.evs, h.len, h.col, by have := h.room; omega, h.buf, h.byte⟩

/-- The byte that fills the line. -/
theorem last_ok {s0 s : S} {c v : Nat} {bs : List Nat} (bi : Nat) (h : Taking s0 s c bs) (hc : c &&& 7 = 1) (hv : v < 256) (hr : bs.length = 119) :
    ∃ s', Spec.give ⟨s, wanted, bi⟩ v = Spec.attend ⟨s', { opr := true }, bi⟩ ∧ Full s0 s' c (bs ++ [v]) := by
  obtain ⟨hc1, hc0, hc4⟩ := tst1 hc
  have hl : s.col < s.buf.length := by rw [h.col, h.len]; omega
  have hm := byte_mod v hv
  have hp := parBad_byte v hv
  have h120 : s.col + 1 = 120 := by rw [h.col]; omega
  have fin : ∀ s' : S, (∃ b r n, s' = { s with st := .opr, selected := false, addressed := false, request := r, data := b, buf := s.buf.set s.col v, col := s.col + 1, cnt := n, dataRdy := false, dataEnd := true }) → Full s0 s' c (bs ++ [v]) := by
    rintro s' ⟨b, r, n, rfl⟩
    refine ⟨rfl, rfl, rfl, h.stacked, h.busyFlag, h.sense, h.cmd, h.status, rfl, rfl, h.feedDone, h.file, h.row, h.lpp, h.fcb, h.ready, h.addr, h.evs, ?_, ?_, ?_, ?_, ?_⟩
    · show (s.buf.set s.col v).length = 144
      rw [List.length_set]; exact h.len
    · show s.col + 1 = (bs ++ [v]).length
      rw [List.length_append, h.col]; rfl
    · rw [List.length_append]; show bs.length + 1 ≤ 120; omega
    · intro j hj
      rw [List.length_append] at hj
      change j < bs.length + 1 at hj
      show (s.buf.set s.col v)[j]? = _
      rw [h.col, List.getElem?_set]
      by_cases q : bs.length = j
      · rw [if_pos q, if_pos (by rw [h.len]; omega), ← q]
        simp
      · rw [if_neg q, h.buf j (by omega), List.getElem?_append_left (by omega)]
    · intro w hw
      rcases List.mem_append.1 hw with q | q
      · exact h.byte w q
      · rw [List.mem_singleton.1 q]; exact hv
  unfold Spec.give Bus.Spec.accept
  by_cases h3 : s.cnt + 1 = 3
  · have e1 : dev s { opr := true, oprIn := true, srvIn := true, srv := true } (Bus.Spec.byte v) bi =
        .ok ({ s with data := Bus.Spec.byte v, st := .initStat, buf := s.buf.set s.col v, col := s.col + 1, cnt := 0, dataRdy := false, dataEnd := true, selected := false }, { opr := true, srv := true }, bi) := by
      unfold dev
      rw [if_neg (by simp)]
      simp only [h.st, dataI, h.selected]
      simp [take, hp, hl, hm, h3, h120, h.selected]
    rw [poll_ok (by exact e1), bk]
    have e2 : dev { s with data := Bus.Spec.byte v, st := .initStat, buf := s.buf.set s.col v, col := s.col + 1, cnt := 0, dataRdy := false, dataEnd := true, selected := false } { opr := true } 0 bi =
        .ok ({ s with data := Bus.Spec.byte v, st := .opr, buf := s.buf.set s.col v, col := s.col + 1, cnt := 0, dataRdy := false, dataEnd := true, selected := false }, { opr := true }, bi) := by
      unfold dev
      rw [if_neg (by simp)]
      simp [initStat]
    rw [poll_ok (by exact e2), bk]
    exact ⟨_, rfl, fin _ ⟨_, s.request, 0, by rw [← h.addressed]⟩⟩
  · have e1 : dev s { opr := true, oprIn := true, srvIn := true, srv := true } (Bus.Spec.byte v) bi =
        .ok ({ s with data := Bus.Spec.byte v, st := .initStat, buf := s.buf.set s.col v, col := s.col + 1, cnt := s.cnt + 1, dataRdy := false, dataEnd := true }, { opr := true, oprIn := true, srv := true }, bi) := by
      unfold dev
      rw [if_neg (by simp)]
      simp only [h.st, dataI, h.selected]
      simp [take, hp, hl, hm, h3, h120, h.selected]
    rw [poll_ok (by exact e1), bk]
    have e2 : dev { s with data := Bus.Spec.byte v, st := .initStat, buf := s.buf.set s.col v, col := s.col + 1, cnt := s.cnt + 1, dataRdy := false, dataEnd := true } { opr := true, oprIn := true } 0 bi =
        .ok ({ s with data := Bus.Spec.byte v, st := .opr, buf := s.buf.set s.col v, col := s.col + 1, cnt := s.cnt + 1, dataRdy := false, dataEnd := true, selected := false, addressed := false }, { opr := true }, bi) := by
      unfold dev
      rw [if_neg (by simp)]
      simp [initStat, h.selected, h.cmd, hc0, hc4, h.status]
    rw [poll_ok (by exact e2), bk]
    exact ⟨_, rfl, fin _ ⟨_, s.request, s.cnt + 1, rfl⟩⟩

/-- The tags while status is shown. -/
def showing : Tags := { opr := true, oprIn := true, staIn := true }

/-- The line is printed, and channel end is shown. -/
theorem ended_ok {s0 s : S} {c d a b R : Nat} {F : Option (List Nat)} {B bs : List Nat} (bi : Nat) (h : Full s0 s c bs) (hc : c &&& 7 = 1) (hd : d ≠ 0) (hb : b = 0 ∨ b = sUnitExp)
    (e : printLine s = .ok ({ s with file := F, buf := B, row := R, sense := a, status := b }, d)) :
    Spec.attend ⟨s, { opr := true }, bi⟩ =
      .ok ⟨{ s with file := F, buf := B, row := R, sense := a, status := b ||| sChnEnd, evs := s.evs + 1, request := true, selected := true, st := .dataEnd }, showing, Bus.Spec.byte (b ||| sChnEnd)⟩ := by
  obtain ⟨hc1, hc0, hc4⟩ := tst1 hc
  have hb1 : (b ||| sChnEnd) &&& sDevEnd = 0 ∧ (b ||| sChnEnd) &&& sChnEnd ≠ 0 ∧ b ||| sChnEnd < 256 := by
    rcases hb with rfl | rfl <;> decide
  have e1 : dev s { opr := true } 0 bi = .ok ({ s with file := F, buf := B, row := R, sense := a, status := b ||| sChnEnd, evs := s.evs + 1, st := .dataEnd }, { opr := true }, bi) := by
    unfold dev
    rw [if_neg (by simp)]
    simp only [h.st]
    have eo : opr s { opr := true } 0 bi = oprData s { opr := true } bi := by simp [opr, h.selected]
    rw [eo, oprData, if_neg (by rw [h.dataRdy]; decide), if_pos h.dataEnd]
    unfold oprEnd
    simp only [h.cmd, if_neg hc4, if_pos hc]
    unfold printEvent
    rw [e, bk, if_neg hd, bk, bk, bk]
    simp [hb1.1, hb1.2.1, h.cmd]
  unfold Spec.attend
  rw [await_step (by simp) e1]
  have e2 : dev { s with file := F, buf := B, row := R, sense := a, status := b ||| sChnEnd, evs := s.evs + 1, st := .dataEnd } { opr := true } 0 bi =
      .ok ({ s with file := F, buf := B, row := R, sense := a, status := b ||| sChnEnd, evs := s.evs + 1, st := .req }, { opr := true }, bi) := by
    unfold dev
    rw [if_neg (by simp)]
    simp [dataEnd, h.selected]
  have e3 := req_raise { s with file := F, buf := B, row := R, sense := a, status := b ||| sChnEnd, evs := s.evs + 1, st := .req } bi rfl h.addressed
  rw [await_step (by simp) e2, await_step (by simp) e3, await_stop (by rfl), bk, if_pos (by rfl), connect_ok _ _ rfl]
  have e4 : dev { s with file := F, buf := B, row := R, sense := a, status := b ||| sChnEnd, evs := s.evs + 1, request := true, selected := true, addressed := false, st := reqNext { s with file := F, buf := B, row := R, sense := a, status := b ||| sChnEnd, evs := s.evs + 1, request := true, st := .req } } { opr := true, oprIn := true } 0 (bytePar s.addr) =
      .ok ({ s with file := F, buf := B, row := R, sense := a, status := b ||| sChnEnd, evs := s.evs + 1, request := true, selected := true, addressed := false, st := .dataEnd }, showing, Bus.Spec.byte (b ||| sChnEnd)) := by
    have hn : reqNext { s with file := F, buf := B, row := R, sense := a, status := b ||| sChnEnd, evs := s.evs + 1, request := true, st := .req } = .dataEnd := by
      simp [reqNext, h.dataEnd, hb1.1]
    rw [hn]
    unfold dev
    rw [if_neg (by simp)]
    simp only [dataEnd]
    rw [if_neg (by decide), withPar_ok _ hb1.2.2, bk]
    simp [showing]
  rw [poll_ok (by exact e4), bk, await_stop (by rfl)]
  rw [← h.addressed]

/-- The channel takes the channel end status. -/
theorem ce_ok (s : S) (bi : Nat) (hst : s.st = .dataEnd) (hs : s.selected = true) (ha : s.addressed = false) (hf : s.feedDone = false) (hv : s.status < 256) :
    ∃ bi', Bus.Spec.accept dev ⟨s, showing, bi⟩ 0 = .ok ⟨{ s with selected := false, status := s.status &&& 0xf7, st := .wait }, { opr := true }, bi'⟩ := by
  unfold Bus.Spec.accept
  have e1 : dev s { opr := true, oprIn := true, staIn := true, srv := true } 0 bi = .ok ({ s with selected := false, status := s.status &&& 0xf7, st := .wait }, { opr := true, srv := true }, Bus.Spec.byte s.status) := by
    unfold dev
    rw [if_neg (by simp)]
    simp only [hst, dataEnd, hs]
    rw [if_neg (by decide), withPar_ok _ hv, bk]
    simp
  rw [poll_ok (by exact e1), bk]
  have e2 : dev { s with selected := false, status := s.status &&& 0xf7, st := .wait } { opr := true } 0 (Bus.Spec.byte s.status) =
      .ok ({ s with selected := false, status := s.status &&& 0xf7, st := .wait }, { opr := true }, Bus.Spec.byte s.status) := by
    unfold dev
    rw [if_neg (by simp)]
    simp [wait, waitBusy, ha, hf]
  rw [poll_ok (by exact e2)]
  exact ⟨_, rfl⟩

theorem dev_ne (x : Nat) : (x ||| sDevEnd) &&& sDevEnd ≠ 0 := by
  intro q
  have := congrArg (fun n => n.testBit 2) q
  simp only [sDevEnd, Nat.testBit_and, Nat.testBit_or, Nat.zero_testBit] at this
  rw [show Nat.testBit 4 2 = true from rfl] at this
  simp at this

/-- The motion is over: device end is shown and taken, and the printer is at rest. -/
theorem done_ok (s : S) (bi : Nat) (hst : s.st = .wait) (hs : s.selected = false) (ha : s.addressed = false) (he : s.dataEnd = true) (hbf : s.busyFlag = false) (hev : s.evs ≠ 0) (hv : s.status < 256) :
    ∃ v bi', Spec.attend (Spec.elapse ⟨s, { opr := true }, bi⟩) = .ok ⟨{ s with evs := s.evs - 1, feedDone := true, st := .fin, selected := true, request := true, status := v, cmd := 0 }, showing, Bus.Spec.byte (s.status ||| sDevEnd)⟩ ∧ v < 256 ∧
    Bus.Spec.accept dev ⟨{ s with evs := s.evs - 1, feedDone := true, st := .fin, selected := true, request := true, status := v, cmd := 0 }, showing, Bus.Spec.byte (s.status ||| sDevEnd)⟩ 0 =
      .ok ⟨{ s with evs := s.evs - 1, feedDone := true, st := .idle, selected := false, request := true, status := v, cmd := 0 }, Bus.Spec.rest, bi'⟩ := by
  have hv1 : s.status ||| sDevEnd < 256 := or8 hv (by decide)
  have hfire : fire s = { s with evs := s.evs - 1, feedDone := true } := if_neg hev
  have hv2 : (if s.sense ≠ 0 then (s.status ||| sDevEnd) ||| sUnitChk else s.status ||| sDevEnd) < 256 := by
    split
    · exact or8 hv1 (by decide)
    · exact hv1
  refine ⟨if s.sense ≠ 0 then (s.status ||| sDevEnd) ||| sUnitChk else s.status ||| sDevEnd, Bus.Spec.byte (if s.sense ≠ 0 then (s.status ||| sDevEnd) ||| sUnitChk else s.status ||| sDevEnd), ?_, hv2, ?_⟩
  · unfold Spec.elapse
    rw [show fire (⟨s, { opr := true }, bi⟩ : Spec.Link).s = _ from hfire]
    have e1 : dev { s with evs := s.evs - 1, feedDone := true } { opr := true } 0 bi = .ok ({ s with evs := s.evs - 1, feedDone := true, st := .fin, status := s.status ||| sDevEnd }, { opr := true }, bi) := by
      unfold dev
      rw [if_neg (by simp)]
      simp [hst, wait, waitBusy, ha, hs]
    have e2 : dev { s with evs := s.evs - 1, feedDone := true, st := .fin, status := s.status ||| sDevEnd } { opr := true } 0 bi = .ok ({ s with evs := s.evs - 1, feedDone := true, st := .req, status := s.status ||| sDevEnd }, { opr := true }, bi) := by
      unfold dev
      rw [if_neg (by simp)]
      simp [endSt, hs]
    have e3 := req_raise { s with evs := s.evs - 1, feedDone := true, st := .req, status := s.status ||| sDevEnd } bi rfl ha
    unfold Spec.attend
    rw [await_step (by simp) e1, await_step (by simp) e2, await_step (by simp) e3, await_stop (by rfl), bk, if_pos (by rfl), connect_ok _ _ rfl]
    have hn : reqNext { s with evs := s.evs - 1, feedDone := true, request := true, st := .req, status := s.status ||| sDevEnd } = .fin := by
      simp [reqNext, he, dev_ne]
    have e4 : dev { s with evs := s.evs - 1, feedDone := true, request := true, status := s.status ||| sDevEnd, selected := true, addressed := false, st := .fin } { opr := true, oprIn := true } 0 (bytePar s.addr) =
        .ok ({ s with evs := s.evs - 1, feedDone := true, request := true, status := if s.sense ≠ 0 then (s.status ||| sDevEnd) ||| sUnitChk else s.status ||| sDevEnd, selected := true, addressed := false, st := .fin, cmd := 0 }, showing, Bus.Spec.byte (s.status ||| sDevEnd)) := by
      unfold dev
      rw [if_neg (by simp)]
      simp only [endSt, hbf]
      rw [if_neg (by decide), if_neg (by decide)]
      simp only [Bool.false_eq_true, if_false]
      rw [withPar_ok _ hv1, bk]
      simp [showing]
    rw [poll_ok (by rw [hn]; exact e4), bk, await_stop (by rfl)]
    rw [← ha]
  · generalize (if s.sense ≠ 0 then (s.status ||| sDevEnd) ||| sUnitChk else s.status ||| sDevEnd) = v at hv2 ⊢
    unfold Bus.Spec.accept
    have e5 : dev { s with evs := s.evs - 1, feedDone := true, st := .fin, selected := true, request := true, status := v, cmd := 0 } { opr := true, oprIn := true, staIn := true, srv := true } 0 (Bus.Spec.byte (s.status ||| sDevEnd)) =
        .ok ({ s with evs := s.evs - 1, feedDone := true, st := .idle, selected := false, request := true, status := v, cmd := 0 }, { opr := true, srv := true }, Bus.Spec.byte v) := by
      unfold dev
      rw [if_neg (by simp)]
      simp only [endSt, hbf]
      rw [if_neg (by decide), if_neg (by decide)]
      simp only [Bool.false_eq_true, if_false]
      rw [withPar_ok _ hv2, bk]
      simp [hbf]
    rw [poll_ok (by exact e5), bk]
    have e6 : dev { s with evs := s.evs - 1, feedDone := true, st := .idle, selected := false, request := true, status := v, cmd := 0 } { opr := true } 0 (Bus.Spec.byte v) =
        .ok ({ s with evs := s.evs - 1, feedDone := true, st := .idle, selected := false, request := true, status := v, cmd := 0 }, { opr := true }, Bus.Spec.byte v) := by
      unfold dev
      rw [if_neg (by simp)]
      simp [idle, isSelect]
    rw [poll_ok (by exact e6)]
    rfl

/-! ### The beginning -/

/-- Initial selection gives the command to the printer, which shows the resulting status. -/
theorem initSel_ok (s : S) (bi c : Nat) (hr : Spec.AtRest s) {s' : S}
    (e : command { s with st := .sel, selected := true } (Bus.Spec.byte c) = .ok s') (h1 : s'.st = .cmd) (h2 : s'.selected = true) (h3 : s'.status < 256) :
    Bus.Spec.initialSelection dev ⟨s, Bus.Spec.rest, bi⟩ s.addr c true = .ok ⟨s', { opr := true, hld := true, oprIn := true, staIn := true }, Bus.Spec.byte s'.status⟩ := by
  have hm := byte_mod s.addr hr.addr
  have hp := parBad_byte s.addr hr.addr
  unfold Bus.Spec.initialSelection
  have e1 : dev s { opr := true, adr := true, sel := true, hld := true } (Bus.Spec.byte s.addr) bi = .ok ({ s with st := .sel, addressed := true }, { opr := true, adr := true, hld := true, oprIn := true }, bi) := by
    unfold dev
    rw [if_neg (by simp)]
    simp [hr.st, idle, isSelect, select, hm, hp]
  rw [poll_ok (by exact e1), bk]
  have e2 : dev { s with st := .sel, addressed := true } { opr := true, hld := true, oprIn := true } (Bus.Spec.byte s.addr) bi =
      .ok ({ s with st := .sel, addressed := false, selected := true }, { opr := true, hld := true, oprIn := true, adrIn := true }, bytePar s.addr) := by
    unfold dev
    rw [if_neg (by simp)]
    simp [sel]
  rw [poll_ok (by exact e2), bk]
  have e3 : dev { s with st := .sel, addressed := false, selected := true } { opr := true, hld := true, oprIn := true, adrIn := true, cmd := true } (Bus.Spec.byte c) (bytePar s.addr) =
      .ok (s', { opr := true, hld := true, oprIn := true, cmd := true }, bytePar s.addr) := by
    unfold dev
    rw [if_neg (by simp)]
    rw [hr.addressed] at e
    simp [sel, e, bk]
  rw [poll_ok (by exact e3), bk]
  have e4 : dev s' { opr := true, hld := true, oprIn := true } 0 (bytePar s.addr) = .ok (s', { opr := true, hld := true, oprIn := true, staIn := true }, Bus.Spec.byte s'.status) := by
    unfold dev
    rw [if_neg (by simp)]
    simp [h1, cmdSt, h2, withPar_ok _ h3, bk]
  exact poll_ok (by exact e4)

/-- The printer after a write command. -/
abbrev begun (s : S) (c : Nat) : S :=
  { s with st := .cmd, selected := true, cmd := c, dataRdy := true, dataEnd := false, col := 0, cnt := 0, feedDone := false, status := 0, sense := 0 }

theorem command_write (s : S) (c : Nat) (f : List Nat) (hr : s.ready = true) (hf : s.file = some f) (hc : c < 256) (h1 : c &&& 7 = 1) (hm : badMotion c = false) :
    command { s with st := .sel, selected := true } (Bus.Spec.byte c) = .ok (begun s c) := by
  unfold command
  simp only [byte_mod c hc, parBad_byte c hc]
  rw [if_neg (by rw [hr, hf]; simp)]
  unfold decode
  simp only [h1, hm]
  rfl

theorem begin_ok (s : S) (c bi : Nat) (f : List Nat) (h : Spec.AtRest s) (hr : s.ready = true) (hf : s.file = some f) (hc : c < 256) (h1 : c &&& 7 = 1) (hm : badMotion c = false) :
    ∃ L0 L1 L2 s3 bi3, Bus.Spec.initialSelection dev ⟨s, Bus.Spec.rest, bi⟩ s.addr c true = .ok L0 ∧ L0.bi = Bus.Spec.byte 0 ∧
      Bus.Spec.poll dev L0 (fun t => { t with srv := true }) 0 = .ok L1 ∧ Bus.Spec.poll dev L1 (fun t => { t with srv := false, hld := false }) 0 = .ok L2 ∧
      Spec.attend L2 = .ok ⟨s3, wanted, bi3⟩ ∧ Taking s s3 c [] := by
  obtain ⟨hc1, hc0, hc4⟩ := tst1 h1
  have e0 := initSel_ok s bi c h (command_write s c f hr hf hc h1 hm) rfl rfl (by show 0 < 256; decide)
  have e1 : dev (begun s c) { opr := true, hld := true, oprIn := true, staIn := true, srv := true } 0 (Bus.Spec.byte 0) =
      .ok ({ begun s c with st := .initStat }, { opr := true, hld := true, oprIn := true, srv := true }, Bus.Spec.byte 0) := by
    unfold dev
    rw [if_neg (by simp)]
    simp only [cmdSt, if_true]
    rw [if_neg (by simp), if_neg (by simp), withPar_ok _ (by decide), bk]
  have e2 : dev { begun s c with st := .initStat } { opr := true, oprIn := true } 0 (Bus.Spec.byte 0) =
      .ok ({ begun s c with st := .opr }, { opr := true, oprIn := true }, Bus.Spec.byte 0) := by
    unfold dev
    rw [if_neg (by simp)]
    simp [initStat, hc0]
  obtain ⟨r, bi3, e3⟩ := attend_more (b := true) { begun s c with st := .opr } (Bus.Spec.byte 0) rfl h.addressed rfl rfl hc1 rfl
  exact ⟨_, _, _, _, _, e0, rfl, poll_ok (by exact e1), poll_ok (by exact e2), e3, rfl, rfl, h.addressed, rfl, rfl, rfl, rfl, rfl, rfl, rfl, rfl, rfl, rfl, rfl, rfl, rfl, rfl, rfl, h.len, rfl,
    by decide, fun j hj => absurd hj (Nat.not_lt_zero j), fun v hv => absurd hv (List.not_mem_nil), by show 0 < 3; decide⟩

/-- From the complete line to rest. -/
theorem finish_ok {s0 s : S} {c d a b R : Nat} {F : Option (List Nat)} {B bs : List Nat} (bi : Nat) (h : Full s0 s c bs) (h0 : Spec.AtRest s0) (hc : c &&& 7 = 1) (hd : d ≠ 0) (hb : b = 0 ∨ b = sUnitExp)
    (hB : B.length = 144) (e : printLine s = .ok ({ s with file := F, buf := B, row := R, sense := a, status := b }, d)) :
    ∃ L1 L2 L3 L4, Spec.attend ⟨s, { opr := true }, bi⟩ = .ok L1 ∧ L1.bi = Bus.Spec.byte (b ||| sChnEnd) ∧ L1.t.srvIn = false ∧
      Bus.Spec.accept dev L1 0 = .ok L2 ∧ Spec.attend (Spec.elapse L2) = .ok L3 ∧ L3.bi = Bus.Spec.byte (b ||| sDevEnd) ∧
      Bus.Spec.accept dev L3 0 = .ok L4 ∧ L4.t = Bus.Spec.rest ∧ L4.s.file = F ∧ L4.s.row = R ∧ L4.s.sense = a ∧ L4.s.lpp = s0.lpp ∧ L4.s.fcb = s0.fcb ∧ L4.s.ready = s0.ready ∧ L4.s.addr = s0.addr ∧ L4.s.evs = s0.evs ∧ Spec.AtRest L4.s := by
  have e1 := ended_ok bi h hc hd hb e
  have hb1 : b ||| sChnEnd < 256 ∧ (b ||| sChnEnd) &&& 0xf7 = b := by rcases hb with rfl | rfl <;> decide
  obtain ⟨bi2, e2⟩ := ce_ok { s with file := F, buf := B, row := R, sense := a, status := b ||| sChnEnd, evs := s.evs + 1, request := true, selected := true, st := .dataEnd } (Bus.Spec.byte (b ||| sChnEnd)) rfl rfl h.addressed h.feedDone hb1.1
  obtain ⟨v, bi3, e3, hv, e4⟩ := done_ok { s with file := F, buf := B, row := R, sense := a, status := (b ||| sChnEnd) &&& 0xf7, evs := s.evs + 1, request := true, selected := false, st := .wait } bi2 rfl rfl h.addressed h.dataEnd
    (h.busyFlag.trans h0.busyFlag) (Nat.succ_ne_zero _) (by show (b ||| sChnEnd) &&& 0xf7 < 256; rw [hb1.2]; rcases hb with rfl | rfl <;> decide)
  refine ⟨_, _, _, _, e1, rfl, rfl, e2, e3, ?_, e4, rfl, rfl, rfl, rfl, h.lpp, h.fcb, h.ready, h.addr, h.evs, rfl, ?_, rfl, h.addressed, h.stacked.trans h0.stacked, h.busyFlag.trans h0.busyFlag, hB⟩
  · show Bus.Spec.byte ((b ||| sChnEnd) &&& 0xf7 ||| sDevEnd) = _
    rw [hb1.2]
  · show s.addr < 256
    rw [h.addr]; exact h0.addr

theorem space_good (n : Nat) (h : n ≤ 3) : Spec.writeSpace n < 256 ∧ badMotion (Spec.writeSpace n) = false ∧ Spec.spaceNow n < 256 ∧ badMotion (Spec.spaceNow n) = false ∧ Spec.spaceNow n &&& 7 = 3 := by
  have key : ∀ n : Fin 4, Spec.writeSpace n.val < 256 ∧ badMotion (Spec.writeSpace n.val) = false ∧ Spec.spaceNow n.val < 256 ∧ badMotion (Spec.spaceNow n.val) = false ∧ Spec.spaceNow n.val &&& 7 = 3 := by decide
  exact key ⟨n, by omega⟩

/-- The unit exception bit of a motion by `n` lines from line `row`: the line with channel 12, the 61st, is left. -/
def Spec.overflow (row n : Nat) : Nat := if row ≤ 60 ∧ 60 < row + n then 1 else 0

theorem passed12 (row n : Nat) (hr : row ≤ 66) (hn : n ≤ 3) : (if passed 12 row n then 1 else 0) = Spec.overflow row n := by
  have key : ∀ row : Fin 67, ∀ n : Fin 4, (if passed 12 row.val n.val then 1 else 0) = Spec.overflow row.val n.val := by decide +kernel
  exact key ⟨row, by omega⟩ ⟨n, by omega⟩

theorem write_ok (s : S) (f bs : List Nat) (n bi : Nat) (hl : Spec.Loaded s f) (hs : Spec.AtRest s) (hr : s.ready = true)
    (hb : ∀ v ∈ bs, v < 256) (hlen : bs.length ≤ 120) (hn : n ≤ 3) (hrow : s.row + n ≤ 66) :
    ∃ L, Spec.write ⟨s, Bus.Spec.rest, bi⟩ (Spec.writeSpace n) bs =
        .ok ((Bus.Spec.byte 0, Bus.Spec.byte ((if passed 12 s.row n then 1 else 0) ||| 0x08), Bus.Spec.byte ((if passed 12 s.row n then 1 else 0) ||| 0x04)), L) ∧
      L.t = Bus.Spec.rest ∧ L.s.file = some (f ++ trim (bs.map Spec.glyph) ++ Spec.newlines n) ∧ L.s.row = s.row + n ∧ L.s.addr = s.addr ∧ L.s.evs = s.evs ∧
      Spec.Loaded L.s (f ++ trim (bs.map Spec.glyph) ++ Spec.newlines n) ∧ Spec.AtRest L.s ∧ L.s.ready = true := by
  obtain ⟨g1, g2, -, -, -⟩ := space_good n hn
  obtain ⟨c1, -, -⟩ := cmd_write n hn
  obtain ⟨L0, L1, L2, s3, bi3, e0, b0, e1, e2, e3, k3⟩ := begin_ok s (Spec.writeSpace n) bi f hs hr hl.file g1 c1 g2
  have tail : ∀ (s4 : S) (bi4 : Nat), Full s s4 (Spec.writeSpace n) bs → ∃ L5 L6 L7 L8, Spec.attend ⟨s4, { opr := true }, bi4⟩ = .ok L5 ∧ L5.bi = Bus.Spec.byte ((if passed 12 s.row n then 1 else 0) ||| 0x08) ∧ L5.t.srvIn = false ∧
      Bus.Spec.accept dev L5 0 = .ok L6 ∧ Spec.attend (Spec.elapse L6) = .ok L7 ∧ L7.bi = Bus.Spec.byte ((if passed 12 s.row n then 1 else 0) ||| 0x04) ∧ Bus.Spec.accept dev L7 0 = .ok L8 ∧
      L8.t = Bus.Spec.rest ∧ L8.s.file = some (f ++ trim (bs.map Spec.glyph) ++ Spec.newlines n) ∧ L8.s.row = s.row + n ∧ L8.s.addr = s.addr ∧ L8.s.evs = s.evs ∧
      Spec.Loaded L8.s (f ++ trim (bs.map Spec.glyph) ++ Spec.newlines n) ∧ Spec.AtRest L8.s ∧ L8.s.ready = true := by
    intro s4 bi4 h4
    have ep := print_space (s := s4) (f := f) n ⟨h4.file.trans hl.file, h4.fcb.trans hl.fcb, h4.lpp.trans hl.lpp, by rw [h4.row]; exact hl.row⟩ h4.holds hn h4.cmd (by rw [h4.row]; exact hrow)
    obtain ⟨L5, L6, L7, L8, q1, q2, q3, q4, q5, q6, q7, q8, q9, q10, -, q11, q12, q13, q14, q14', q15⟩ :=
      finish_ok bi4 h4 hs c1 (by omega : 31 + 5 * n ≠ 0) (a := if passed 9 s4.row n then s4.sense ||| eChan9 else s4.sense) (b := if passed 12 s4.row n then s4.status ||| sUnitExp else s4.status)
        (by rw [h4.status]; by_cases q : passed 12 s4.row n = true <;> simp [q]) (List.length_replicate (n := 144) (a := 0x40404040)) ep
    have hbb : (if passed 12 s4.row n then s4.status ||| sUnitExp else s4.status) = (if passed 12 s.row n then 1 else 0) := by
      rw [h4.status, h4.row]
      split <;> rfl
    rw [hbb] at q2 q6
    rw [h4.row] at q10
    exact ⟨L5, L6, L7, L8, q1, q2, q3, q4, q5, q6, q7, q8, q9, q10, q14, q14', ⟨q9, q12.trans hl.fcb, q11.trans hl.lpp, by rw [q10]; exact hrow⟩, q15, q13.trans hr⟩
  unfold Spec.write
  rw [e0, bk, e1, bk, e2, bk, e3, bk]
  rcases Nat.lt_or_ge bs.length 120 with hq | hq
  · obtain ⟨s4, bi4, e4, k4⟩ := gives_ok c1 bs bi3 k3 hb (by show 0 + bs.length < 120; omega)
    obtain ⟨s5, e5, k5⟩ := stop_ok bi4 k4 c1
    obtain ⟨L5, L6, L7, L8, q1, q2, -, q4, q5, q6, q7, q8⟩ := tail s5 bi4 k5
    rw [e4, bk, e5, q1, bk, q4, bk, q5, bk, q7, bk, b0, q2, q6]
    exact ⟨L8, rfl, q8⟩
  · have hne : bs ≠ [] := by intro q; rw [q] at hq; exact absurd hq (by decide)
    have hsp := List.dropLast_concat_getLast hne
    have hdl : bs.dropLast.length = 119 := by rw [List.length_dropLast]; omega
    obtain ⟨s4, bi4, e4, k4⟩ := gives_ok c1 bs.dropLast bi3 k3 (fun v hv => hb v (List.dropLast_subset bs hv)) (by show 0 + bs.dropLast.length < 120; omega)
    obtain ⟨s5, e5, k5⟩ := last_ok (v := bs.getLast hne) bi4 k4 c1 (hb _ (List.getLast_mem hne)) (by rw [List.nil_append]; exact hdl)
    rw [List.nil_append, hsp] at k5
    obtain ⟨L5, L6, L7, L8, q1, q2, q3, q4, q5, q6, q7, q8⟩ := tail s5 bi4 k5
    have split : ∀ (a b : List Nat) (L L' : Spec.Link), Spec.gives L a = .ok L' → Spec.gives L (a ++ b) = Spec.gives L' b := by
      intro a
      induction a with
      | nil => intro b L L' e; have := Res.ok.inj e; subst this; rfl
      | cons v vs ih =>
        intro b L L' e
        obtain ⟨L1, a1, a2⟩ := bind_inv e
        show (Spec.give L v).bind _ = _
        rw [a1]
        exact ih b L1 L' a2
    have eg : Spec.gives ⟨s3, wanted, bi3⟩ bs = .ok L5 := by
      rw [← hsp, split _ _ _ _ e4]
      show (Spec.give _ _).bind _ = _
      rw [e5, q1]
      rfl
    have ef : Spec.finish L5 = .ok L5 := by unfold Spec.finish; rw [if_neg (by rw [q3]; decide)]
    rw [eg, bk, ef, bk, q4, bk, q5, bk, q7, bk, b0, q2, q6]
    exact ⟨L8, rfl, q8⟩

/-- **C98** (part): a line of up to 120 characters written over the channel, with a spacing that stays on the form, is
accepted, taken byte by byte and shown complete by channel end and then by device end; the paper has the characters and the
spacing, and the printer is at rest again for the next command.  Missing: skips, and motion past the last line. -/
theorem C98_write_partial (s : S) (f bs : List Nat) (n bi : Nat) (hl : Spec.Loaded s f) (hs : Spec.AtRest s) (hr : s.ready = true)
    (hb : ∀ v ∈ bs, v < 256) (hlen : bs.length ≤ 120) (hn : n ≤ 3) (hrow : s.row + n ≤ 66) :
    ∃ L w, Spec.write ⟨s, Bus.Spec.rest, bi⟩ (Spec.writeSpace n) bs =
        .ok ((Bus.Spec.byte 0, Bus.Spec.byte (0x08 + Spec.overflow s.row n), Bus.Spec.byte (0x04 + Spec.overflow s.row n)), L) ∧
      Spec.Trimmed (bs.map Spec.glyph) w ∧ Spec.Loaded L.s (f ++ w ++ Spec.newlines n) ∧ L.s.row = s.row + n ∧
      L.t = Bus.Spec.rest ∧ L.s.addr = s.addr ∧ L.s.evs = s.evs ∧ Spec.AtRest L.s ∧ L.s.ready = true := by
  obtain ⟨L, e, k1, -, k3, k4, k4', k5, k6, k7⟩ := write_ok s f bs n bi hl hs hr hb hlen hn hrow
  refine ⟨L, _, ?_, trim_spec _, k5, k3, k1, k4, k4', k6, k7⟩
  rw [e, passed12 _ _ hl.row hn]
  have : Spec.overflow s.row n = 0 ∨ Spec.overflow s.row n = 1 := by unfold Spec.overflow; split <;> simp
  rcases this with q | q <;> rw [q] <;> rfl

example : Spec.Loaded (create 0x0e (some [1]) true) [1] ∧ Spec.AtRest (create 0x0e (some [1]) true) ∧ (create 0x0e (some [1]) true).ready = true :=
  ⟨⟨rfl, rfl, rfl, by decide⟩, ⟨rfl, by decide, rfl, rfl, rfl, rfl, List.length_replicate⟩, rfl⟩

/-- The printer after an immediate command that moved the paper. -/
theorem command_feed (s : S) (n : Nat) (f : List Nat) (hl : Spec.Loaded s f) (hr : s.ready = true) (hn : n ≤ 3) (hrow : s.row + n ≤ 66) :
    command { s with st := .sel, selected := true } (Bus.Spec.byte (Spec.spaceNow n)) =
      .ok { s with st := .cmd, selected := true, cmd := Spec.spaceNow n, dataRdy := false, dataEnd := true, col := 0, cnt := 0, feedDone := false, status := sChnEnd, sense := 0, file := some (f ++ Spec.newlines n), row := s.row + n, evs := s.evs + 1 } := by
  obtain ⟨-, -, g3, g4, g5⟩ := space_good n hn
  unfold command
  simp only [byte_mod _ g3, parBad_byte _ g3]
  rw [if_neg (by rw [hr, hl.file]; simp)]
  unfold decode
  simp only [g5, g4]
  unfold printEvent
  have e := feed_space (s := { s with st := .cmd, selected := true, cmd := Spec.spaceNow n, dataRdy := false, dataEnd := false, col := 0, cnt := 0, feedDone := false, status := 0, sense := 0 }) (f := f) n ⟨hl.file, hl.fcb, hl.lpp, hl.row⟩ hn rfl hrow
  rw [if_neg (by decide), e, bk, if_neg (by show 20 + 5 * n ≠ 0; omega), bk, bk]
  rfl

/-- **C98** (part): an immediate spacing that stays on the form is shown by channel end in the initial status and, when the
paper has moved, by device end; the paper has moved and the printer is at rest. -/
theorem C98_space_partial (s : S) (f : List Nat) (n bi : Nat) (hl : Spec.Loaded s f) (hs : Spec.AtRest s) (hr : s.ready = true) (hn : n ≤ 3) (hrow : s.row + n ≤ 66) :
    ∃ L, Spec.control ⟨s, Bus.Spec.rest, bi⟩ (Spec.spaceNow n) = .ok ((Bus.Spec.byte 0x08, Bus.Spec.byte 0x04), L) ∧
      L.t = Bus.Spec.rest ∧ L.s.file = some (f ++ Spec.newlines n) ∧ L.s.row = s.row + n ∧ L.s.addr = s.addr ∧ L.s.evs = s.evs ∧ Spec.Loaded L.s (f ++ Spec.newlines n) ∧ Spec.AtRest L.s ∧ L.s.ready = true := by
  have hc0 : Spec.spaceNow n ≠ 0 := by unfold Spec.spaceNow; omega
  have e0 := initSel_ok s bi _ hs (command_feed s n f hl hr hn hrow) rfl rfl (by show sChnEnd < 256; decide)
  unfold Spec.control
  rw [e0, bk]
  generalize hs1 : ({ s with st := .cmd, selected := true, cmd := Spec.spaceNow n, dataRdy := false, dataEnd := true, col := 0, cnt := 0, feedDone := false, status := sChnEnd, sense := 0, file := some (f ++ Spec.newlines n), row := s.row + n, evs := s.evs + 1 } : S) = s1
  have e1 : dev s1 { opr := true, hld := true, oprIn := true, staIn := true, srv := true } 0 (Bus.Spec.byte s1.status) =
      .ok ({ s1 with st := .initStat }, { opr := true, hld := true, oprIn := true, srv := true }, Bus.Spec.byte sChnEnd) := by
    subst hs1
    unfold dev
    rw [if_neg (by simp)]
    simp only [cmdSt, if_true]
    rw [if_neg (by simp), if_neg (by simp), withPar_ok _ (by decide), bk]
  rw [poll_ok (by exact e1), bk]
  have e2 : dev { s1 with st := .initStat } { opr := true, oprIn := true } 0 (Bus.Spec.byte sChnEnd) = .ok ({ s1 with status := 0, selected := false, addressed := false, st := .wait }, { opr := true }, Bus.Spec.byte sChnEnd) := by
    subst hs1
    unfold dev
    rw [if_neg (by simp)]
    simp [initStat, hc0, sChnEnd, sUnitChk, sUnitExp]
  rw [poll_ok (by exact e2), bk]
  obtain ⟨v, bi3, e3, hv, e4⟩ := done_ok { s1 with status := 0, selected := false, addressed := false, st := .wait } (Bus.Spec.byte sChnEnd) rfl rfl rfl (by subst hs1; rfl) (by subst hs1; exact hs.busyFlag) (by subst hs1; exact Nat.succ_ne_zero _) (by show 0 < 256; decide)
  rw [e3, bk, e4, bk]
  subst hs1
  refine ⟨_, congrArg Res.ok (Prod.ext (Prod.ext rfl (congrArg Bus.Spec.byte (by decide : 0 ||| sDevEnd = 4))) rfl), ?_⟩
  exact ⟨rfl, rfl, rfl, rfl, rfl, ⟨rfl, hl.fcb, hl.lpp, hrow⟩, ⟨rfl, hs.addr, rfl, rfl, hs.stacked, hs.busyFlag, hs.len⟩, hr⟩

end Verif.Lpr
