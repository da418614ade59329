import Verif.Ctl2841.Boot
import Verif.Ctl2841.Bound
import Verif.Ctl2841.Select
import Verif.Ctl2844.Props

/-!
# The 2841: properties C148 to C154

`s.run es` is the control unit `s.c` with the interface lines it drives, after the events `es`:
microinstructions and cycles of the channel in any order.  `Idle` is the state in which the
microprogram waits for the channel with no drive asking for attention; `C149_power_on` shows
that the control unit gets there.
-/

namespace Verif.Ctl2841
open Verif.Ctl2844 (Ev T B up bit outTags inTags micros Selecting Holds Resets Shows addrOf withParity ADR_IN OPR_IN STA_IN SRV_IN
  SEL_OUT ADR_OUT OPR_OUT SUP_OUT REQ_IN Quiet Out parityOk setBit clrBit)

/-! ## Control storage and the drives -/

/-- C148. From power on no schedule at all, whatever the channel and the drives do, takes the
microprogram out of its control storage, makes it reach through a null pointer or lets the outcome
depend on a variable nobody has set. -/
theorem C148_control_storage (addr : T) (disk : BitVec 3 → Option Dasd.S) (tin bin : T) (es : List Ev) :
    Line.run ⟨powerOn addr disk, tin, bin⟩ es ≠ .oob ∧ Line.run ⟨powerOn addr disk, tin, bin⟩ es ≠ .null ∧
      Line.run ⟨powerOn addr disk, tin, bin⟩ es ≠ .undef := by
  have h := good_run es ⟨powerOn addr disk, tin, bin⟩ ⟨by show Ctl2844.InRos 0#16; unfold Ctl2844.InRos; decide, fun i hi => by cases hi⟩
  refine ⟨?_, ?_, ?_⟩ <;> intro hx <;> rw [hx] at h <;> exact h

/-- C148. As long as it runs, the next word is one of the 4096 and the current drive is attached. -/
theorem C148_next_word (addr : T) (disk : BitVec 3 → Option Dasd.S) (tin bin : T) (es : List Ev) (s' : Line)
    (h : Line.run ⟨powerOn addr disk, tin, bin⟩ es = .ok s') :
    s'.c.WX.toNat < 4096 ∧ ∀ i, s'.c.cur = some i → (s'.c.disk i).isSome = true := by
  have k := good_run es ⟨powerOn addr disk, tin, bin⟩ ⟨by show Ctl2844.InRos 0#16; unfold Ctl2844.InRos; decide, fun i hi => by cases hi⟩
  rw [h] at k
  exact ⟨k.1.lt, k.2⟩

/-! ## Power on -/

/-- C149. From power on, with any drives not asking for attention, and whatever the channel does
with other control units: the control unit goes on, it raises no line and puts nothing on the bus, and
after 18 microinstructions it is idle. -/
theorem C149_power_on (addr : T) (disk : BitVec 3 → Option Dasd.S) (hq : Quiet disk) (tin bin : T)
    (ht : tin &&& outTags = 0#16) (es : List Ev) (he : ∀ e ∈ es, Passes addr e) :
    ∃ s', Line.run ⟨powerOn addr disk, tin, bin⟩ es = .ok s' ∧ (s'.tin = tin ∨ s'.tin = tin &&& ~~~ADR_IN) ∧ s'.bin = bin ∧
      (18 ≤ micros es → Idle s'.c ∧ s'.c.addressed = false ∧ s'.c.selected = false ∧ s'.c.addr = addr) := by
  obtain ⟨s', h1, h2, h3, h4, h5⟩ := Rests.run (s := ⟨powerOn addr disk, tin, bin⟩) (powerOn_rests addr disk hq) ht es he
  refine ⟨s', h1, h3, h4, fun hm => ?_⟩
  rw [show 18 - micros es = 0 by omega] at h2
  exact ⟨h2.idle.1, h2.idle.2.1, h2.idle.2.2, h5⟩

/-- C149. Once idle it stays idle until it is selected. -/
theorem C149_stays {s : Line} (h : Idle s.c) (ha : s.c.addressed = false) (hs : s.c.selected = false)
    (ht : s.tin &&& outTags = 0#16) (es : List Ev) (he : ∀ e ∈ es, Passes s.c.addr e) :
    ∃ s', s.run es = .ok s' ∧ Idle s'.c ∧ s'.c.addressed = false ∧ s'.c.selected = false ∧
      (s'.tin = s.tin ∨ s'.tin = s.tin &&& ~~~ADR_IN) ∧ s'.bin = s.bin := by
  obtain ⟨s', h1, h2, h3, h4, _⟩ := Rests.run (n := 0) (s := s) (.inl ⟨h, ha, hs⟩) ht es he
  rw [Nat.zero_sub] at h2
  exact ⟨s', h1, h2.idle.1, h2.idle.2.1, h2.idle.2.2, h3, h4⟩

/-! ## Initial selection -/

/-- The state after the schedule of a selection. -/
theorem select_run {s : Line} (h : Idle s.c) (hs : s.c.selected = false) (had : s.c.addressed = false)
    (ht : s.tin &&& outTags = 0#16) (hi : up s.tin ADR_IN = false) (bo : T) (hk : (bo &&& 0xf0#16) = s.c.addr)
    (es1 es2 : List Ev) (h1 : ∀ e ∈ es1, Holds bo e) (h2 : ∀ e ∈ es2, Holds bo e) (hc : 2 ≤ cycles es1) (hm : 6 ≤ micros es2)
    (out : T) (ho : Selecting out) :
    ∃ s', s.run (es1 ++ es2 ++ [.bus out bo]) = .ok s' ∧ up s'.tin ADR_IN = true ∧ up s'.tin OPR_IN = true ∧
      up s'.tin STA_IN = false ∧ s'.bin = withParity (addrOf bo) ∧ s'.c.opr_in = true ∧ s'.c.IG = 0x01#8 ∧
      s'.tin &&& outTags = 0#16 := by
  obtain ⟨s1, n1, a1, a2, a3, a4, _, a6⟩ := (h.at hs had ht hi (addrOf bo)).run bo rfl hk es1 h1
  obtain ⟨s2, n2, b1, b2, b3, b4, b5, _⟩ := a2.run bo rfl (by rw [a3]; exact hk) es2 h2
  obtain ⟨s3, n3, c1, c2, c3, c4, _, _, c7⟩ := b2.next bo rfl (by rw [b3, a3]; exact hk) (.bus out bo) ⟨ho, rfl⟩
  have n6 := a6 (by omega)
  have n0 := b5 n6
  obtain ⟨d1, d2, d3, d4, d5⟩ := c7 (by omega) ⟨out, rfl⟩
  refine ⟨s3, ?_, d1, d2, d3, c2.ans d1, d4, d5, c2.tin⟩
  rw [Line.run_append, Line.run_append, a1, Out.bind_ok, b1, Out.bind_ok]
  show (s2.next _).bind _ = _
  rw [c1]
  rfl

/-- C150. Initial selection: the channel puts an address of this control unit on the bus, with address
out and select out.  However its cycles and the microinstructions interleave, once there have been two
cycles and then six microinstructions the next cycle finds the control unit operational, showing
exactly this address with good parity. -/
theorem C150_selection {s : Line} (h : Idle s.c) (hs : s.c.selected = false) (had : s.c.addressed = false)
    (ht : s.tin &&& outTags = 0#16) (hi : up s.tin ADR_IN = false) (bo : T) (hk : (bo &&& 0xf0#16) = s.c.addr)
    (es1 es2 : List Ev) (h1 : ∀ e ∈ es1, Holds bo e) (h2 : ∀ e ∈ es2, Holds bo e) (hc : 2 ≤ cycles es1) (hm : 6 ≤ micros es2)
    (out : T) (ho : Selecting out) :
    ∃ s', s.run (es1 ++ es2 ++ [.bus out bo]) = .ok s' ∧ up s'.tin ADR_IN = true ∧ up s'.tin OPR_IN = true ∧
      up s'.tin STA_IN = false ∧ Shows s'.bin (addrOf bo) := by
  obtain ⟨s', k1, k2, k3, k4, k5, _⟩ := select_run h hs had ht hi bo hk es1 es2 h1 h2 hc hm out ho
  exact ⟨s', k1, k2, k3, k4, k5 ▸ Ctl2844.withParity_shows _⟩

/-- C150. At no time of a selection does it show any other address, and it never stops. -/
theorem C150_no_other_address {s : Line} (h : Idle s.c) (hs : s.c.selected = false) (had : s.c.addressed = false)
    (ht : s.tin &&& outTags = 0#16) (hi : up s.tin ADR_IN = false) (bo : T) (hk : (bo &&& 0xf0#16) = s.c.addr)
    (es : List Ev) (hes : ∀ e ∈ es, Holds bo e) :
    ∃ s', s.run es = .ok s' ∧ (up s'.tin ADR_IN = true → Shows s'.bin (addrOf bo)) := by
  obtain ⟨s1, n1, a1, a2, _⟩ := (h.at hs had ht hi (addrOf bo)).run bo rfl hk es hes
  exact ⟨s1, a1, fun hx => (a2.ans hx) ▸ Ctl2844.withParity_shows _⟩

/-! ## The other control units -/

/-- C151. An idle control unit takes address in of every other one down: if another control unit,
before it on the channel, has raised address in (any lines `t`), it is down again after this
one's turn, unless this one is being addressed itself. -/
theorem C151_violated_drops_address_in {c : Ctx} (h : Idle c) (had : c.addressed = false) (bo t b : T)
    (ho : up t OPR_OUT = true) (ha : up t ADR_OUT = true → (bo &&& 0xf0#16) ≠ c.addr) (_hi : up t ADR_IN = true) :
    up (dev bo ⟨c, t, b⟩).tags ADR_IN = false := by
  obtain ⟨c', h1, _⟩ := h.pass bo t b ho had ha
  rw [h1]
  rw [Ctl2844.up_adrIn]
  simp [ADR_IN]

/-- C151. So behind another control unit `other` (anything which takes the lines and gives them
back, and keeps the channel's operational out and address out) the channel never sees address in. -/
theorem C151_violated_behind {σ : Type} (other : T → σ × T × T → σ × T × T) {c : Ctx} (h : Idle c) (had : c.addressed = false)
    (bo : T) (st : σ) (t b : T) (ho : up (other bo (st, t, b)).2.1 OPR_OUT = true)
    (ha : up (other bo (st, t, b)).2.1 ADR_OUT = true → (bo &&& 0xf0#16) ≠ c.addr) :
    up (dev bo ⟨c, (other bo (st, t, b)).2.1, (other bo (st, t, b)).2.2⟩).tags ADR_IN = false := by
  generalize other bo (st, t, b) = x at ho ha
  cases hx : up x.2.1 ADR_IN with
  | true => exact C151_violated_drops_address_in h had bo _ _ ho ha hx
  | false =>
    obtain ⟨c', h1, _⟩ := h.pass bo x.2.1 x.2.2 ho had ha
    rw [h1]
    have : ∀ t : T, up t ADR_IN = false → up (t &&& ~~~ADR_IN) ADR_IN = false := by
      intro t ht
      rw [Ctl2844.up_adrIn] at *
      simp [ADR_IN]
    exact this _ hx

/-- C151. All the other lines pass: a cycle for another control unit, or with address out down, changes
no line but address in and not the bus, and the control unit stays idle. -/
theorem C151_passes_partial {c : Ctx} (h : Idle c) (had : c.addressed = false) (bo t b : T)
    (ho : up t OPR_OUT = true) (ha : up t ADR_OUT = true → (bo &&& 0xf0#16) ≠ c.addr) :
    (∀ i, i < 16 → ADR_IN.getLsbD i = false → (dev bo ⟨c, t, b⟩).tags.getLsbD i = t.getLsbD i) ∧
      (dev bo ⟨c, t, b⟩).bin = b ∧ Idle (dev bo ⟨c, t, b⟩).c ∧
      (dev bo ⟨c, t, b⟩).c.addressed = false ∧ (dev bo ⟨c, t, b⟩).c.selected = false := by
  obtain ⟨c', h1, h2, h3, h4, _⟩ := h.pass bo t b ho had ha
  rw [h1]
  refine ⟨fun i hi hx => ?_, rfl, h2, h4, h3⟩
  show (t &&& ~~~ADR_IN).getLsbD i = _
  rw [BitVec.getLsbD_and, BitVec.getLsbD_not, hx]
  simp [hi]

/-! ## The address of the control unit -/

/-- C152. A control unit configured at an address whose last digit is not zero never answers: whatever
addresses the channel selects, and whatever the schedule, it never leaves its waiting state, and it
raises no line. -/
theorem C152_violated_never_answers (addr : T) (hz : addr &&& 0x0f#16 ≠ 0#16) (disk : BitVec 3 → Option Dasd.S) (hq : Quiet disk)
    (es : List Ev) (he : ∀ e ∈ es, match e with | .micro => True | .bus out _ => up out OPR_OUT = true) (hm : 18 ≤ micros es) :
    ∃ s', Line.run ⟨powerOn addr disk, 0#16, 0#16⟩ es = .ok s' ∧ s'.tin = 0#16 ∧ Idle s'.c ∧ s'.c.selected = false := by
  obtain ⟨s', h1, h2, _, h4⟩ := C149_power_on addr disk hq 0#16 0#16 (by decide) es (fun e hx => by
    have := he e hx
    cases e with
    | micro => exact True.intro
    | bus out bo =>
      refine ⟨this, fun _ hk => hz ?_⟩
      rw [← hk, BitVec.and_assoc]
      simp)
  obtain ⟨h5, _, h6, _⟩ := h4 hm
  refine ⟨s', h1, ?_, h5, h6⟩
  rcases h2 with h2 | h2 <;> rw [h2]
  decide

/-- C152. With last digit zero it answers all sixteen addresses which start with its first digit, also
those of drives which are not there. -/
theorem C152_answers_partial {s : Line} (h : Idle s.c) (hs : s.c.selected = false) (had : s.c.addressed = false)
    (ht : s.tin &&& outTags = 0#16) (hi : up s.tin ADR_IN = false) (hz : s.c.addr &&& 0xff0f#16 = 0#16) (k : BitVec 4)
    (out : T) (ho : Selecting out) :
    ∃ es s', s.run es = .ok s' ∧ up s'.tin ADR_IN = true ∧
      Shows s'.bin ((s.c.addr ||| k.setWidth 16).setWidth 8) := by
  have hk : ((s.c.addr ||| k.setWidth 16) &&& 0xf0#16) = s.c.addr := by
    apply BitVec.eq_of_getLsbD_eq
    intro i hi
    have h1 := congrArg (fun x => x.getLsbD i) hz
    rcases (by omega : i = 0 ∨ i = 1 ∨ i = 2 ∨ i = 3 ∨ i = 4 ∨ i = 5 ∨ i = 6 ∨ i = 7 ∨ i = 8 ∨ i = 9 ∨ i = 10 ∨ i = 11 ∨ i = 12 ∨
      i = 13 ∨ i = 14 ∨ i = 15) with h | h | h | h | h | h | h | h | h | h | h | h | h | h | h | h <;> subst h <;> simp at h1 ⊢ <;> simp [h1]
  obtain ⟨s', k1, k2, _, _, k5⟩ := C150_selection h hs had ht hi (s.c.addr ||| k.setWidth 16) hk 
    [.bus out (s.c.addr ||| k.setWidth 16), .bus out (s.c.addr ||| k.setWidth 16)]
    (List.replicate 6 .micro) (by simp [Holds, ho]) (by simp [Holds]) (by simp [cycles]) (by decide) out ho
  exact ⟨_, s', k1, k2, k5⟩

/-! ## Reset -/

theorem ifOprIn_oprIn (s : IF) (h : s.c.opr_in = true) : up (ifOprIn s).tags OPR_IN = true := by
  unfold ifOprIn
  rw [if_pos h, Ctl2844.up_oprIn]
  simp [OPR_IN]

open Ctl2844 in
theorem ifPoll_oprIn (s : IF) (h : up s.tags OPR_IN = true) : up (ifPoll s).tags OPR_IN = true := by
  unfold ifPoll
  dsimp only
  have h1 := oprIn_kept _ REQ_IN h
  repeat' split
  all_goals first
    | exact h
    | exact h1
    | exact oprIn_cut _ (~~~STA_IN) (by decide) h
    | exact oprIn_cut _ (~~~STA_IN) (by decide) h1

open Ctl2844 in
theorem ifReq_oprIn (s : IF) (h : up s.tags OPR_IN = true) : up (ifReq s).tags OPR_IN = true := by
  unfold ifReq
  split
  · exact oprIn_cut _ (~~~REQ_IN) (by decide) h
  · exact h

open Ctl2844 in
theorem ifEnd_oprIn (s : IF) (h : up s.tags OPR_IN = true) : up (ifEnd s).tags OPR_IN = true := by
  unfold ifEnd
  split
  · rw [up_oprIn]; simp [OPR_IN]
  · exact h

open Ctl2844 in
theorem data1_oprIn (bo : T) (s : IF) (h : up s.tags OPR_IN = true) : up (data1 bo s).tags OPR_IN = true := by
  unfold data1
  dsimp only
  have h1 := oprIn_cut _ (~~~SEL_OUT) (by decide) h
  split
  · exact oprIn_kept _ ADR_IN h1
  · exact oprIn_cut _ (~~~ADR_IN) (by decide) h1

open Ctl2844 in
theorem data2_oprIn (s : IF) (h : up s.tags OPR_IN = true) : up (data2 s).tags OPR_IN = true := by
  unfold data2
  dsimp only
  have h1 := oprIn_kept _ SRV_IN h
  have h2 := oprIn_cut _ (~~~SRV_IN) (by decide) h
  have h3 := oprIn_cut _ (~~~SRV_IN) (by decide) h1
  repeat' split
  all_goals first
    | exact h
    | exact h1
    | exact h2
    | exact h3

open Ctl2844 in
theorem data3_oprIn (s : IF) (h : up s.tags OPR_IN = true) : up (data3 s).tags OPR_IN = true := by
  unfold data3
  split
  · exact oprIn_kept _ STA_IN h
  · exact oprIn_cut _ (~~~STA_IN) (by decide) h

theorem ifData_oprIn (bo : T) (s : IF) (h : up s.tags OPR_IN = true) : up (ifData bo s).tags OPR_IN = true := by
  unfold ifData
  split
  · exact data3_oprIn _ (data2_oprIn _ (data1_oprIn bo s h))
  · exact h

theorem ifDrop_kept (s : IF) (h : bit s.c.IG 1 = false) : ifDrop s = s := by
  unfold ifDrop
  rw [if_neg (by rw [h]; decide)]

theorem ifAddr_kept (bo : T) (s : IF) : (ifAddr bo s).c.opr_in = s.c.opr_in ∧ (ifAddr bo s).c.IG = s.c.IG := by
  unfold ifAddr
  dsimp only
  repeat' split
  all_goals exact ⟨rfl, rfl⟩

theorem ifSta_kept (s : IF) : (ifSta s).c.opr_in = s.c.opr_in ∧ (ifSta s).c.IG = s.c.IG := by
  unfold ifSta
  split <;> exact ⟨rfl, rfl⟩

theorem ifAdrIn_kept (s : IF) (h : s.c.opr_in = true) : (ifAdrIn s).c.opr_in = true ∧ (ifAdrIn s).c.IG = s.c.IG := by
  unfold ifAdrIn
  split
  · exact ⟨rfl, rfl⟩
  · exact ⟨h, rfl⟩

theorem ifAsk_kept (s : IF) : (ifAsk s).c.opr_in = s.c.opr_in ∧ (ifAsk s).c.IG = s.c.IG := by
  unfold ifAsk
  split <;> exact ⟨rfl, rfl⟩

/-- A cycle with operational out keeps operational in up as long as the latch is set and the
microprogram does not drop it. -/
theorem dev_oprIn (bo : T) (s : IF) (hn : up s.tags OPR_OUT = true) (h : s.c.opr_in = true) (hg : bit s.c.IG 1 = false) :
    up (dev bo s).tags OPR_IN = true := by
  unfold dev
  rw [if_neg (by rw [Ctl2844.noReset hn]; exact id)]
  apply ifData_oprIn
  apply ifEnd_oprIn
  apply ifReq_oprIn
  apply ifPoll_oprIn
  apply ifOprIn_oprIn
  have a0 := ifAsk_kept { s with c := { s.c with bus_out := bo.setWidth 8, tags := s.tags } }
  have a1 := ifAdrIn_kept _ (a0.1.trans h)
  have a2 := ifSta_kept (ifAdrIn (ifAsk { s with c := { s.c with bus_out := bo.setWidth 8, tags := s.tags } }))
  have a3 := ifAddr_kept bo (ifSel (ifSta (ifAdrIn (ifAsk { s with c := { s.c with bus_out := bo.setWidth 8, tags := s.tags } }))))
  rw [ifDrop_kept _ (by rw [a3.2]; show bit (ifSta _).c.IG 1 = false; rw [a2.2, a1.2, a0.2]; exact hg), a3.1]
  show (ifSta _).c.opr_in = true
  rw [a2.1]
  exact a1.1

/-- C153. In general a reset does not clean the interface: after the reset of a control unit which
was operational, operational in comes up again with the first cycle in which operational out is
up, whatever else the channel does. -/
theorem C153_violated_operational_in {s : Line} (hop : s.c.opr_in = true) (hg : bit s.c.IG 1 = false)
    (ht : s.tin &&& outTags = 0#16) (r out bo bo' : T) (hr : Resets r) (ho : up out OPR_OUT = true) :
    ∃ s', s.run [.bus r bo', .bus out bo] = .ok s' ∧ up s'.tin OPR_IN = true := by
  have h1 := Ctl2844.resets_lines s.tin r ht hr
  have e : s.run [.bus r bo', .bus out bo] = (s.next (.bus r bo')).bind fun x => (x.next (.bus out bo)).bind .ok := rfl
  rw [e]
  unfold Line.next
  rw [Out.bind_ok]
  unfold Resets at h1
  have e1 : (dev bo' ⟨s.c, s.tin ||| (r &&& outTags), s.bin⟩).c.opr_in = true ∧
      bit (dev bo' ⟨s.c, s.tin ||| (r &&& outTags), s.bin⟩).c.IG 1 = false := by
    unfold dev
    rw [if_pos h1]
    exact ⟨hop, hg⟩
  refine ⟨_, rfl, ?_⟩
  show up (_ &&& inTags) OPR_IN = true
  exact Ctl2844.oprIn_cut _ _ (by decide) (dev_oprIn bo _ (Ctl2844.opr_line _ out ho) e1.1 e1.2)

/-- C153. This happens: select a drive, reset, and operational in is back although the channel
selects nothing. -/
theorem C153_violated_after_selection {s : Line} (h : Idle s.c) (hs : s.c.selected = false) (had : s.c.addressed = false)
    (ht : s.tin &&& outTags = 0#16) (hi : up s.tin ADR_IN = false) (bo : T) (hk : (bo &&& 0xf0#16) = s.c.addr)
    (es1 es2 : List Ev) (h1 : ∀ e ∈ es1, Holds bo e) (h2 : ∀ e ∈ es2, Holds bo e) (hc : 2 ≤ cycles es1) (hm : 6 ≤ micros es2)
    (out r out' : T) (ho : Selecting out) (hr : Resets r) (ho' : up out' OPR_OUT = true) :
    ∃ s', s.run ((es1 ++ es2 ++ [.bus out bo]) ++ [.bus r 0x100#16, .bus out' 0x100#16]) = .ok s' ∧
      up s'.tin OPR_IN = true := by
  obtain ⟨s1, k1, _, _, _, _, k6, k7, k8⟩ := select_run h hs had ht hi bo hk es1 es2 h1 h2 hc hm out ho
  rw [Line.run_append, k1, Out.bind_ok]
  exact C153_violated_operational_in k6 (by rw [k7]; decide) k8 r out' _ _ hr ho'

/-- C153. The reset cycle itself takes the in tags of a selected control unit down, deselects it and
sends the microprogram back to its start; a control unit which is not selected touches no line. -/
theorem C153_reset_cycle_partial (c : Ctx) (bo t b : T) (hr : Resets t) :
    (dev bo ⟨c, t, b⟩).c.selected = false ∧ (dev bo ⟨c, t, b⟩).c.addressed = false ∧ (dev bo ⟨c, t, b⟩).c.WX = 0#16 ∧
      (dev bo ⟨c, t, b⟩).bin = b ∧
      (c.selected = true → up (dev bo ⟨c, t, b⟩).tags OPR_IN = false ∧ up (dev bo ⟨c, t, b⟩).tags ADR_IN = false ∧
        up (dev bo ⟨c, t, b⟩).tags STA_IN = false) ∧
      (c.selected = false → (dev bo ⟨c, t, b⟩).tags = t) := by
  unfold Resets at hr
  unfold dev
  rw [if_pos hr]
  refine ⟨rfl, rfl, rfl, rfl, fun h => ?_, fun h => ?_⟩
  · dsimp only
    rw [if_pos h]
    refine ⟨?_, ?_, ?_⟩
    · rw [Ctl2844.up_oprIn]; simp [OPR_IN]
    · rw [Ctl2844.up_adrIn]; simp [OPR_IN, ADR_IN]
    · rw [Ctl2844.up_staIn]; simp [OPR_IN, ADR_IN, STA_IN, SRV_IN]
  · dsimp only
    rw [if_neg (by rw [h]; decide)]

/-! ## A concrete case

A control unit at address 0x90 with one drive, number 0. -/

/-- It becomes idle. -/
theorem example_idle (t : Dasd.DiskType) : ∃ s, Line.run ⟨powerOn 0x90#16 (Ctl2844.oneDrive (Dasd.fresh t)), 0#16, 0#16⟩
    (List.replicate 18 .micro) = .ok s ∧ Idle s.c ∧ s.c.addressed = false ∧ s.c.selected = false ∧ s.tin &&& outTags = 0#16 ∧
      up s.tin ADR_IN = false ∧ s.c.addr = 0x90#16 := by
  obtain ⟨s, h1, h2, _, h4⟩ := C149_power_on 0x90#16 (Ctl2844.oneDrive (Dasd.fresh t)) (Ctl2844.oneDrive_quiet t) 0#16 0#16 (by decide)
    (List.replicate 18 .micro) (by intro e he; rw [(List.mem_replicate.1 he).2]; exact True.intro)
  obtain ⟨h5, h6, h7, h8⟩ := h4 (by decide)
  have : s.tin = 0#16 := by rcases h2 with h2 | h2 <;> rw [h2]; decide
  exact ⟨s, h1, h5, h6, h7, by rw [this]; decide, by rw [this]; decide, h8⟩

/-- Address 0x90 (parity bit on) is answered by address 0x90. -/
example (t : Dasd.DiskType) : ∃ s s', Line.run ⟨powerOn 0x90#16 (Ctl2844.oneDrive (Dasd.fresh t)), 0#16, 0#16⟩
    (List.replicate 18 .micro) = .ok s ∧
      s.run ([.bus 0xc200#16 0x190#16, .bus 0xc200#16 0x190#16] ++ List.replicate 6 .micro ++ [.bus 0xc200#16 0x190#16]) = .ok s' ∧
      up s'.tin ADR_IN = true ∧ Shows s'.bin 0x90#8 := by
  obtain ⟨s, h1, h2, h3, h4, h5, h6, h7⟩ := example_idle t
  obtain ⟨s', k1, k2, _, _, k5⟩ := C150_selection h2 h4 h3 h5 h6 0x190#16 (by rw [h7]; decide) [.bus 0xc200#16 0x190#16, .bus 0xc200#16 0x190#16]
    (List.replicate 6 .micro) (by simp [Holds, Ctl2844.selecting]) (by simp [Holds]) (by decide) (by decide) _ Ctl2844.selecting
  exact ⟨s, s', h1, k1, k2, k5⟩

/-- Address in of another control unit (lines 0x0200 | 0x0040 | operational in) is taken down. -/
example (t : Dasd.DiskType) : ∃ s, Line.run ⟨powerOn 0x90#16 (Ctl2844.oneDrive (Dasd.fresh t)), 0#16, 0#16⟩
    (List.replicate 18 .micro) = .ok s ∧ up (dev 0x00e#16 ⟨s.c, OPR_OUT ||| ADR_OUT ||| OPR_IN ||| ADR_IN, 0x00e#16⟩).tags ADR_IN = false := by
  obtain ⟨s, h1, h2, h3, h4, h5, h6, h7⟩ := example_idle t
  exact ⟨s, h1, C151_violated_drops_address_in h2 h3 _ _ _ (by decide) (fun _ => by rw [h7]; decide) (by decide)⟩

/-- A control unit at 0x98. -/
example (t : Dasd.DiskType) : ∃ s', Line.run ⟨powerOn 0x98#16 (Ctl2844.oneDrive (Dasd.fresh t)), 0#16, 0#16⟩
    (List.replicate 18 .micro ++ [.bus 0xc200#16 0x098#16]) = .ok s' ∧ s'.tin = 0#16 := by
  obtain ⟨s', h1, h2, _⟩ := C152_violated_never_answers 0x98#16 (by decide) _ (Ctl2844.oneDrive_quiet t)
    (List.replicate 18 .micro ++ [.bus 0xc200#16 0x098#16]) (by
      intro e he
      rcases List.mem_append.1 he with h | h
      · rw [(List.mem_replicate.1 h).2]; exact True.intro
      · rw [List.mem_singleton.1 h]; show up 0xc200#16 OPR_OUT = true; decide) (by decide)
  exact ⟨s', h1, h2⟩

/-- A selection, a reset, and operational in is back. -/
example (t : Dasd.DiskType) : ∃ s s', Line.run ⟨powerOn 0x90#16 (Ctl2844.oneDrive (Dasd.fresh t)), 0#16, 0#16⟩
    (List.replicate 18 .micro) = .ok s ∧
      s.run (([.bus 0xc200#16 0x190#16, .bus 0xc200#16 0x190#16] ++ List.replicate 6 .micro ++ [.bus 0xc200#16 0x190#16]) ++
        [.bus 0#16 0x100#16, .bus 0x200#16 0x100#16]) = .ok s' ∧ up s'.tin OPR_IN = true := by
  obtain ⟨s, h1, h2, h3, h4, h5, h6, h7⟩ := example_idle t
  obtain ⟨s', k1, k2⟩ := C153_violated_after_selection h2 h4 h3 h5 h6 0x190#16 (by rw [h7]; decide) [.bus 0xc200#16 0x190#16, .bus 0xc200#16 0x190#16]
    (List.replicate 6 .micro) (by simp [Holds, Ctl2844.selecting]) (by simp [Holds]) (by decide) (by decide) _ 0#16 0x200#16 Ctl2844.selecting
    (by unfold Resets; decide) (by decide)
  exact ⟨s, s', h1, k1, k2⟩

end Verif.Ctl2841
