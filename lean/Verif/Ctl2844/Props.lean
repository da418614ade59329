import Verif.Ctl2844.Boot
import Verif.Ctl2844.Bound
import Verif.Ctl2844.Write

/-!
# The 2844: properties C116 to C124

`s.run es` is the control unit `s.c` with the interface lines it drives, after the events `es`:
microinstructions and cycles of the channel in any order.  `Idle` is the state in which the
microprogram waits for the channel with no drive asking for attention; `C123_power_on` shows
that the control unit gets there.
-/

namespace Verif.Ctl2844

/-- The address byte on the bus. -/
abbrev addrOf (bo : T) : B := bo.setWidth 8

/-- Selection by an address the control unit takes. -/
theorem select_taken {s : Line} (h : Idle s.c) (ht : s.tin &&& outTags = 0#16) (bo : T) (hk : takes s.c bo = true)
    (ha : bit (addrOf bo) 4 = false) (hd : (s.c.disk ((addrOf bo).setWidth 3)).isSome = true)
    (out0 out1 : T) (h0 : Selecting out0) (h1 : Selecting out1) (es : List Ev) (hes : ∀ e ∈ es, Holds bo e)
    (hm : 13 ≤ micros es) :
    ∃ s', s.run (.bus out0 bo :: (es ++ [.bus out1 bo])) = .ok s' ∧ up s'.tin ADR_IN = true ∧ up s'.tin OPR_IN = true ∧
      up s'.tin STA_IN = false ∧ s'.bin = answer s.c (addrOf bo) ∧ s'.c.opr_in = true ∧ s'.c.IG = 0x01#8 ∧
      s'.tin &&& outTags = 0#16 := by
  obtain ⟨s1, n, k1, k2, _, k4, k5, _⟩ := h.select ht out0 bo h0 hk
  have ka : s1.c.addr = s.c.addr := congrArg Regs.addr k5
  have kd : s1.c.disk = s.c.disk := congrArg Regs.disk k5
  have hk1 : takes s1.c bo = true := by unfold takes at hk ⊢; rw [ka]; exact hk
  obtain ⟨s2, m, l1, l2, l3, l4, l5⟩ := k2.run ha (by rw [kd]; exact hd) bo rfl hk1 es hes
  have hk2 : takes s2.c bo = true := by unfold takes at hk1 ⊢; rw [l4]; exact hk1
  obtain ⟨s3, m1, m2, m3, m4⟩ := l2.bus out1 bo h1 rfl hk2
  obtain ⟨m4, m5, m6, m7, m8⟩ := m4 (by omega)
  refine ⟨s3, ?_, m4, m5, m6, ?_, m7, m8, m2.tin⟩
  · show (s.next _).bind _ = _
    rw [k1, Out.bind_ok, Line.run_append, l1, Out.bind_ok]
    show (s2.next _).bind _ = _
    rw [m1]
    rfl
  · rw [m2.ans m4]
    unfold answer
    rw [show s3.c.addr = s2.c.addr from congrArg Regs.addr m3, l4, ka]

theorem own_answer (c : Ctx) (bo : T) (h : (bo &&& 0xf0#16) = c.addr) : answer c (addrOf bo) = withParity (addrOf bo) := by
  unfold answer high
  congr 1
  rw [← h]
  apply BitVec.eq_of_getLsbD_eq
  intro i hi
  rcases (by omega : i = 0 ∨ i = 1 ∨ i = 2 ∨ i = 3 ∨ i = 4 ∨ i = 5 ∨ i = 6 ∨ i = 7) with h | h | h | h | h | h | h | h <;> subst h <;> simp

/-- A line of nine bits shows the byte `x` with good parity: an odd number of ones. -/
def Shows (b : T) (x : B) : Prop :=
  b.setWidth 8 = x ∧ ((List.range 9).countP fun i => b.getLsbD i) % 2 = 1 ∧ b.toNat < 512

theorem withParity_shows (x : B) : Shows (withParity x) x := by
  have h : ∀ x : B, (withParity x).setWidth 8 = x ∧
      ((List.range 9).countP fun i => (withParity x).getLsbD i) % 2 = 1 ∧ (withParity x).toNat < 512 := by
    decide +kernel
  exact h x

/-- C120. Initial selection: the channel puts the address of one of the drives which are there on
the bus, with address out and select out.  However its cycles and the microinstructions
interleave, once 13 microinstructions have run the control unit is operational and shows
exactly this address, with good parity. -/
theorem C120_selection {s : Line} (h : Idle s.c) (ht : s.tin &&& outTags = 0#16) (bo : T) (hk : (bo &&& 0xf0#16) = s.c.addr)
    (ha : bit (addrOf bo) 4 = false) (hd : (s.c.disk ((addrOf bo).setWidth 3)).isSome = true)
    (out0 out1 : T) (h0 : Selecting out0) (h1 : Selecting out1) (es : List Ev) (hes : ∀ e ∈ es, Holds bo e)
    (hm : 13 ≤ micros es) :
    ∃ s', s.run (.bus out0 bo :: (es ++ [.bus out1 bo])) = .ok s' ∧ up s'.tin ADR_IN = true ∧ up s'.tin OPR_IN = true ∧
      up s'.tin STA_IN = false ∧ Shows s'.bin (addrOf bo) := by
  obtain ⟨s', k1, k2, k3, k4, k5, _⟩ := select_taken h ht bo (by unfold takes; simp [hk]) ha hd out0 out1 h0 h1 es hes hm
  exact ⟨s', k1, k2, k3, k4, (k5.trans (own_answer s.c bo hk)) ▸ withParity_shows _⟩

/-- C120. At no time of a selection does it show any other address. -/
theorem C120_no_other_address {s : Line} (h : Idle s.c) (ht : s.tin &&& outTags = 0#16) (bo : T)
    (hk : (bo &&& 0xf0#16) = s.c.addr) (ha : bit (addrOf bo) 4 = false)
    (hd : (s.c.disk ((addrOf bo).setWidth 3)).isSome = true) (out0 : T) (h0 : Selecting out0) (es : List Ev)
    (hes : ∀ e ∈ es, Holds bo e) :
    ∃ s', s.run (.bus out0 bo :: es) = .ok s' ∧ (up s'.tin ADR_IN = true → Shows s'.bin (addrOf bo)) := by
  have hk0 : takes s.c bo = true := by unfold takes; simp [hk]
  obtain ⟨s1, n, k1, k2, _, k4, k5, _⟩ := h.select ht out0 bo h0 hk0
  have ka : s1.c.addr = s.c.addr := congrArg Regs.addr k5
  have kd : s1.c.disk = s.c.disk := congrArg Regs.disk k5
  have hk1 : takes s1.c bo = true := by unfold takes; rw [ka]; simp [hk]
  obtain ⟨s2, m, l1, l2, l3, l4, l5⟩ := k2.run ha (by rw [kd]; exact hd) bo rfl hk1 es hes
  refine ⟨s2, ?_, fun hx => ?_⟩
  · show (s.next _).bind _ = _
    rw [k1]
    exact l1
  · rw [l2.ans hx, own_answer s2.c bo (by rw [l4, ka]; exact hk)]
    exact withParity_shows _

/-- C116. In general the control unit answers addresses which are not its own: whatever address
the channel puts on the bus with good parity, if it has a drive with this last digit it takes
the selection and answers with the address of that drive. -/
theorem C116_violated_answers_others {s : Line} (h : Idle s.c) (ht : s.tin &&& outTags = 0#16) (bo : T)
    (hp : parityOk bo = true) (_ho : (bo &&& 0xf0#16) ≠ s.c.addr)
    (ha : bit (addrOf bo) 4 = false) (hd : (s.c.disk ((addrOf bo).setWidth 3)).isSome = true)
    (out0 out1 : T) (h0 : Selecting out0) (h1 : Selecting out1) (es : List Ev) (hes : ∀ e ∈ es, Holds bo e)
    (hm : 13 ≤ micros es) :
    ∃ s', s.run (.bus out0 bo :: (es ++ [.bus out1 bo])) = .ok s' ∧ up s'.tin ADR_IN = true ∧ up s'.tin OPR_IN = true ∧
      s'.bin = withParity (high s.c.addr ||| (addrOf bo &&& 0x0f#8)) := by
  obtain ⟨s', k1, k2, k3, _, k5, _⟩ := select_taken h ht bo (by unfold takes; simp [hp]) ha hd out0 out1 h0 h1 es hes hm
  exact ⟨s', k1, k2, k3, k5⟩

/-- C116. Select out does not get past an idle control unit: one cycle with any address of good
parity takes it. -/
theorem C116_violated_swallows_select {c : Ctx} (h : Idle c) (bo t b : T) (hp : parityOk bo = true)
    (ht : Selecting t) : up (dev bo ⟨c, t, b⟩).tags SEL_OUT = false := by
  obtain ⟨c', t', h1, _, _, _, h5, _⟩ := bus_select (c := c)
    ⟨h.request, h.sta, h.srv, h.svc, h.er3, h.opr⟩ bo t b h.ig ht.opr ht.adr ht.sel ht.cmd (by unfold takes; simp [hp])
  rw [h1]
  exact h5

/-- C116. An address which is neither its own nor of good parity passes an idle control unit: it
changes none of the lines. -/
theorem C116_passes_partial {c : Ctx} (h : Idle c) (bo t b : T) (ho : up t OPR_OUT = true) (ha : up t ADR_OUT = true)
    (hn : (bo &&& 0xf0#16) ≠ c.addr) (hp : parityOk bo = false) :
    (dev bo ⟨c, t, b⟩).tags = t ∧ (dev bo ⟨c, t, b⟩).bin = b ∧ Idle (dev bo ⟨c, t, b⟩).c := by
  obtain ⟨c', h1, h2, _⟩ := h.pass bo t b ho (.inl ⟨ha, by unfold takes; simp [hn, hp]⟩)
  rw [h1]
  exact ⟨rfl, rfl, h2⟩

/-- C117. In general starting I/O can end the simulator: if the channel selects an address of good
parity, or of this control unit, and there is no drive with its last digit, then however the
events interleave the twelfth microinstruction at the latest reaches through a null pointer. -/
theorem C117_violated_null {s : Line} (h : Idle s.c) (ht : s.tin &&& outTags = 0#16) (bo : T)
    (hk : (bo &&& 0xf0#16) = s.c.addr ∨ parityOk bo = true) (hd : s.c.disk ((addrOf bo).setWidth 3) = none)
    (out0 : T) (h0 : Selecting out0) (es : List Ev) (hes : ∀ e ∈ es, Holds bo e) (hm : 12 ≤ micros es) :
    s.run (.bus out0 bo :: es) = .null := by
  have hk0 : takes s.c bo = true := by unfold takes; simpa using hk
  obtain ⟨s1, n, k1, k2, k3, k4, k5, _⟩ := h.select ht out0 bo h0 hk0
  have ka : s1.c.addr = s.c.addr := congrArg Regs.addr k5
  have kd : s1.c.disk = s.c.disk := congrArg Regs.disk k5
  have hk1 : takes s1.c bo = true := by unfold takes at hk0 ⊢; rw [ka]; exact hk0
  show (s.next _).bind _ = _
  rw [k1]
  exact k2.run_none (by omega) (by rw [kd]; exact hd) bo rfl hk1 es hes (by omega)

/-- C117. Selecting a drive which is there never ends the simulator. -/
theorem C117_attached_partial {s : Line} (h : Idle s.c) (ht : s.tin &&& outTags = 0#16) (bo : T)
    (hk : (bo &&& 0xf0#16) = s.c.addr ∨ parityOk bo = true) (ha : bit (addrOf bo) 4 = false)
    (hd : (s.c.disk ((addrOf bo).setWidth 3)).isSome = true) (out0 : T) (h0 : Selecting out0) (es : List Ev)
    (hes : ∀ e ∈ es, Holds bo e) : ∃ s', s.run (.bus out0 bo :: es) = .ok s' := by
  have hk0 : takes s.c bo = true := by unfold takes; simpa using hk
  obtain ⟨s1, n, k1, k2, _, k4, k5, _⟩ := h.select ht out0 bo h0 hk0
  have ka : s1.c.addr = s.c.addr := congrArg Regs.addr k5
  have kd : s1.c.disk = s.c.disk := congrArg Regs.disk k5
  have hk1 : takes s1.c bo = true := by unfold takes at hk0 ⊢; rw [ka]; exact hk0
  obtain ⟨s2, m, l1, _⟩ := k2.run ha (by rw [kd]; exact hd) bo rfl hk1 es hes
  refine ⟨s2, ?_⟩
  show (s.next _).bind _ = _
  rw [k1]
  exact l1

/-- C118. From power on no schedule at all, whatever the channel and the drives do, takes the
microprogram out of its control storage. -/
theorem C118_control_storage (addr : T) (disk : BitVec 3 → Option Dasd.S) (tin bin : T) (es : List Ev) :
    Line.run ⟨powerOn addr disk, tin, bin⟩ es ≠ .oob :=
  (run_inRos es ⟨powerOn addr disk, tin, bin⟩ (by show InRos 0#16; unfold InRos; decide)).1

/-- C118. The same from any state, for the address of the next word. -/
theorem C118_next_word (s s' : Line) (hs : s.c.WX.toNat < 4096) (es : List Ev) (h : s.run es = .ok s') :
    s'.c.WX.toNat < 4096 := by
  have h1 : InRos s.c.WX := by
    have := inRos_of_lt hs
    rwa [BitVec.ofNat_toNat, BitVec.setWidth_eq] at this
  exact ((run_inRos es s h1).2 s' h).lt

/-- C119. In general what a write does is not determined: whenever the drive under write gate, with
the check bytes on, is due for a byte, the outcome depends on a variable nobody has set (or the
drive is out of its buffer). -/
theorem C119_violated_write (c : Ctx) (i : BitVec 3) (d : Dasd.S) (hd : c.disk i = some d)
    (hu : c.UR &&& 0x0f#8 = i.setWidth 8) (ht : c.FT &&& 0x81#8 = 0x81#8) (hf : c.FC &&& 0x04#8 ≠ 0#8)
    (hr : c.FC &&& 0x40#8 = 0#8) (hw : c.FC &&& 0x80#8 ≠ 0#8) (hk : c.FT &&& 0x08#8 ≠ 0#8) (hs : d.ty.rate ≤ d.step) :
    walkOne c i = .undef ∨ walkOne c i = .drive :=
  write_undefined c i d hd (by unfold gated; simp [hu, ht, hf]) hr hw hk hs

/-- C119. Without read gate and write gate a drive always moves on in one way. -/
theorem C119_no_gate_partial (c : Ctx) (i : BitVec 3) (hr : c.FC &&& 0x40#8 = 0#8) (hw : c.FC &&& 0x80#8 = 0#8) :
    ∃ c', walkOne c i = .ok c' := by
  unfold walkOne
  split
  · exact ⟨_, rfl⟩
  · split
    · unfold selDrive
      rw [if_neg (by rw [hr]; decide), if_neg (by rw [hw]; decide)]
      exact ⟨_, rfl⟩
    · exact ⟨_, rfl⟩

/-- C122. An idle control unit leaves the interface to the others: with address out down (and no
selection of its own left over) a cycle changes none of the lines, and it stays idle. -/
theorem C122_transparent {c : Ctx} (h : Idle c) (bo t b : T) (ho : up t OPR_OUT = true) (ha : up t ADR_OUT = false)
    (hn : c.addressed = false) :
    (dev bo ⟨c, t, b⟩).tags = t ∧ (dev bo ⟨c, t, b⟩).bin = b ∧ Idle (dev bo ⟨c, t, b⟩).c ∧
      (dev bo ⟨c, t, b⟩).c.addressed = false := by
  obtain ⟨c', h1, h2, _, h4, _⟩ := h.pass bo t b ho (.inr ⟨ha, hn⟩)
  rw [h1]
  exact ⟨rfl, rfl, h2, h4⟩

/-- C123. From power on, with any drives not asking for attention, and whatever the channel does
with other control units (which this one does not take for its own): the interface lines stay as
they are, and after 11 microinstructions the control unit is idle. -/
theorem C123_power_on (addr : T) (disk : BitVec 3 → Option Dasd.S) (hq : Quiet disk) (tin bin : T)
    (ht : tin &&& outTags = 0#16) (es : List Ev) (he : ∀ e ∈ es, Passes addr e) :
    ∃ s', Line.run ⟨powerOn addr disk, tin, bin⟩ es = .ok s' ∧ s'.tin = tin ∧ s'.bin = bin ∧
      (11 ≤ micros es → Idle s'.c ∧ s'.c.addressed = false ∧ s'.c.addr = addr ∧
        ∀ i, (s'.c.disk i).isSome = (disk i).isSome) := by
  obtain ⟨s', h1, h2, h3, h4, h5, h6⟩ := Rests.run (s := ⟨powerOn addr disk, tin, bin⟩) (powerOn_rests addr disk hq) ht es he
  refine ⟨s', h1, h3, h4, fun hm => ?_⟩
  rw [show 11 - micros es = 0 by omega] at h2
  exact ⟨h2.idle.1, h2.idle.2.1, h5, h6⟩

/-- C123. Once idle it stays idle until it is selected. -/
theorem C123_stays {s : Line} (h : Idle s.c) (ha : s.c.addressed = false) (hs : s.c.selected = false)
    (ht : s.tin &&& outTags = 0#16) (es : List Ev) (he : ∀ e ∈ es, Passes s.c.addr e) :
    ∃ s', s.run es = .ok s' ∧ Idle s'.c ∧ s'.tin = s.tin ∧ s'.bin = s.bin := by
  obtain ⟨s', h1, h2, h3, h4, _⟩ := Rests.run (n := 0) (s := s) (.inl ⟨h, ha, hs⟩) ht es he
  rw [Nat.zero_sub] at h2
  exact ⟨s', h1, h2.idle.1, h3, h4⟩

/-! ## Reset -/

/-- A cycle with operational out and suppress out down. -/
def Resets (out : T) : Prop := out &&& (OPR_OUT ||| SUP_OUT) = 0#16

theorem resets_lines (tin out : T) (ht : tin &&& outTags = 0#16) (h : Resets out) : Resets (tin ||| (out &&& outTags)) := by
  unfold Resets at *
  apply BitVec.eq_of_getLsbD_eq
  intro i hi
  have h1 := congrArg (fun x => x.getLsbD i) h
  simp only [BitVec.getLsbD_and] at h1 ⊢
  by_cases h8 : 8 ≤ i
  · rw [out_bit tin out ht i h8 hi]
    exact h1
  · have : ∀ i : Fin 16, i.val < 8 → (OPR_OUT ||| SUP_OUT).getLsbD i.val = false := by decide
    rw [this ⟨i, hi⟩ (show i < 8 by omega)]
    simp

/-! What the later stages of a cycle keep. -/

theorem oprIn_kept (x m : T) (h : up x OPR_IN = true) : up (x ||| m) OPR_IN = true := by
  rw [up_oprIn] at *
  simp [h]

theorem oprIn_cut (x m : T) (hm : m.getLsbD 7 = true) (h : up x OPR_IN = true) : up (x &&& m) OPR_IN = true := by
  rw [up_oprIn] at *
  simp [h, hm]

theorem ifReq_oprIn (s : IF) (h : up s.tags OPR_IN = true) : up (ifReq s).tags OPR_IN = true := by
  unfold ifReq
  dsimp only
  repeat' split
  all_goals first
    | exact h
    | exact oprIn_kept _ _ h
    | (rw [up_oprIn]; simp [OPR_IN])

theorem ifPoll_oprIn (s : IF) (h : up s.tags OPR_IN = true) : up (ifPoll s).tags OPR_IN = true := by
  unfold ifPoll
  dsimp only
  repeat' split
  all_goals first
    | exact h
    | exact oprIn_kept _ _ h

theorem ifEnd_oprIn (s : IF) (h : up s.tags OPR_IN = true) : up (ifEnd s).tags OPR_IN = true := by
  unfold ifEnd
  dsimp only
  repeat' split
  all_goals first
    | exact h
    | (rw [up_oprIn]; simp [OPR_IN])

theorem ifData_oprIn (bo : T) (s : IF) (h : up s.tags OPR_IN = true) : up (ifData bo s).tags OPR_IN = true := by
  unfold ifData
  dsimp only
  have h1 := oprIn_cut _ (~~~SEL_OUT) (by decide) h
  repeat' split
  all_goals first
    | exact h
    | exact h1
    | exact oprIn_kept _ _ h1
    | exact oprIn_cut _ (~~~SRV_IN) (by decide) h1
    | exact oprIn_cut _ (~~~SRV_IN) (by decide) (oprIn_kept _ _ h1)

theorem ifOprIn_oprIn (s : IF) (h : s.c.opr_in = true) : up (ifOprIn s).tags OPR_IN = true := by
  unfold ifOprIn
  rw [if_pos h, up_oprIn]
  simp [OPR_IN]

theorem ifAddr_kept (bo : T) (s : IF) : (ifAddr bo s).c.opr_in = s.c.opr_in ∧ (ifAddr bo s).c.IG = s.c.IG := by
  unfold ifAddr
  dsimp only
  repeat' split
  all_goals exact ⟨rfl, rfl⟩

theorem ifDrop_kept (s : IF) (h : bit s.c.IG 1 = false) : (ifDrop s) = s := by
  unfold ifDrop
  simp [h]

theorem ifSta_kept (s : IF) : (ifSta s).c.opr_in = s.c.opr_in := by
  unfold ifSta
  split <;> rfl

theorem ifSel_kept (s : IF) : (ifSel s).c.opr_in = s.c.opr_in := by
  unfold ifSel
  first | rfl | (split <;> rfl)

theorem ifAdrIn_kept (s : IF) (h : s.c.opr_in = true) : (ifAdrIn s).c.opr_in = true := by
  unfold ifAdrIn
  repeat' split
  all_goals first | exact h | rfl

theorem ifStaIn_kept (s : IF) (h : s.c.opr_in = true) : (ifStaIn s).c.opr_in = true := by
  unfold ifStaIn
  dsimp only
  repeat' split
  all_goals exact h

/-- A cycle with operational out keeps operational in up as long as the latch is set and the
microprogram does not drop it. -/
theorem dev_oprIn (bo : T) (s : IF) (hn : up s.tags OPR_OUT = true) (h : s.c.opr_in = true) (hg : bit s.c.IG 1 = false) :
    up (dev bo s).tags OPR_IN = true := by
  unfold dev
  rw [if_neg (by rw [noReset hn]; exact id)]
  apply ifData_oprIn
  apply ifEnd_oprIn
  apply ifPoll_oprIn
  apply ifReq_oprIn
  apply ifOprIn_oprIn
  apply ifStaIn_kept
  apply ifAdrIn_kept
  rw [ifSel_kept, ifSta_kept, ifDrop_kept _ (by rw [(ifAddr_kept bo _).2]; exact hg), (ifAddr_kept bo _).1]
  exact h

theorem opr_line (tin out : T) (ho : up out OPR_OUT = true) : up (tin ||| (out &&& outTags)) OPR_OUT = true := by
  rw [up_opr] at *
  simp [ho, outTags]

/-- C121. In general a reset does not clean the interface: after the reset of a control unit which
was operational, operational in comes up again with the first cycle in which operational out is
up, whatever else the channel does. -/
theorem C121_violated_operational_in {s : Line} (hop : s.c.opr_in = true) (hg : bit s.c.IG 1 = false)
    (ht : s.tin &&& outTags = 0#16) (r out bo bo' : T) (hr : Resets r) (ho : up out OPR_OUT = true) :
    ∃ s', s.run [.bus r bo', .bus out bo] = .ok s' ∧ up s'.tin OPR_IN = true := by
  have h1 := resets_lines s.tin r ht hr
  have e : s.run [.bus r bo', .bus out bo] = (s.next (.bus r bo')).bind fun x => (x.next (.bus out bo)).bind .ok := rfl
  rw [e]
  unfold Line.next
  rw [Out.bind_ok]
  unfold Resets at h1
  have e1 : (dev bo' ⟨s.c, s.tin ||| (r &&& outTags), s.bin⟩).c.opr_in = true ∧
      bit (dev bo' ⟨s.c, s.tin ||| (r &&& outTags), s.bin⟩).c.IG 1 = false := by
    unfold dev
    rw [if_pos h1]
    exact ⟨hop, hg⟩
  refine ⟨_, rfl, ?_⟩
  show up (_ &&& inTags) OPR_IN = true
  exact oprIn_cut _ _ (by decide) (dev_oprIn bo _ (opr_line _ out ho) e1.1 e1.2)

/-- C121. This happens: select a drive, reset, and operational in is back although the channel
selects nothing. -/
theorem C121_violated_after_selection {s : Line} (h : Idle s.c) (ht : s.tin &&& outTags = 0#16) (bo : T)
    (hk : (bo &&& 0xf0#16) = s.c.addr) (ha : bit (addrOf bo) 4 = false)
    (hd : (s.c.disk ((addrOf bo).setWidth 3)).isSome = true)
    (out0 out1 r out : T) (h0 : Selecting out0) (h1 : Selecting out1) (hr : Resets r) (ho : up out OPR_OUT = true)
    (es : List Ev) (hes : ∀ e ∈ es, Holds bo e) (hm : 13 ≤ micros es) :
    ∃ s', s.run (.bus out0 bo :: (es ++ [.bus out1 bo]) ++ [.bus r 0x100#16, .bus out 0x100#16]) = .ok s' ∧
      up s'.tin OPR_IN = true := by
  obtain ⟨s1, k1, _, _, _, _, k6, k7, k8⟩ := select_taken h ht bo (by unfold takes; simp [hk]) ha hd out0 out1 h0 h1 es hes hm
  rw [Line.run_append, k1, Out.bind_ok]
  exact C121_violated_operational_in k6 (by rw [k7]; decide) k8 r out _ _ hr ho

/-- C121. The reset cycle itself takes the in tags of a selected control unit down, deselects it and
sends the microprogram back to its start; a control unit which is not selected touches no line. -/
theorem C121_reset_cycle_partial (c : Ctx) (bo t b : T) (hr : Resets t) :
    (dev bo ⟨c, t, b⟩).c.selected = false ∧ (dev bo ⟨c, t, b⟩).c.WX = 0#16 ∧ (dev bo ⟨c, t, b⟩).bin = b ∧
      (c.selected = true → up (dev bo ⟨c, t, b⟩).tags OPR_IN = false ∧ up (dev bo ⟨c, t, b⟩).tags ADR_IN = false ∧
        up (dev bo ⟨c, t, b⟩).tags STA_IN = false) ∧
      (c.selected = false → (dev bo ⟨c, t, b⟩).tags = t) := by
  unfold Resets at hr
  unfold dev
  rw [if_pos hr]
  refine ⟨rfl, rfl, rfl, fun h => ?_, fun h => ?_⟩
  · dsimp only
    rw [if_pos h]
    refine ⟨?_, ?_, ?_⟩ <;> tags44
  · dsimp only
    rw [if_neg (by rw [h]; decide)]

/-! ## The address latch -/

/-- A cycle which offers the address without select out. -/
theorem bus_offer {c : Ctx} (h : Idle c) (bo t b : T) (ho : up t OPR_OUT = true) (ha : up t ADR_OUT = true)
    (hs : up t SEL_OUT = false) (hk : takes c bo = true) :
    ∃ c', dev bo ⟨c, t, b⟩ = ⟨c', t &&& ~~~ADR_IN, b⟩ ∧ Idle c' ∧ c'.addressed = true ∧ c'.selected = false := by
  have hn := noReset ho
  have hk' : (bo &&& 0xf0#16) = c.addr ∨ parityOk bo = true := by
    rcases Bool.or_eq_true_iff.1 hk with h1 | h1
    · exact .inl (of_decide_eq_true h1)
    · exact .inr h1
  generalize he : dev bo ⟨c, t, b⟩ = o
  bus44 he [hn, ha, hs, takes, hk', h.ig, bits08, h.sta, h.opr, h.request, h.sc]
  subst he
  exact ⟨_, rfl, ⟨h.loop, h.st0, h.st2, rfl, rfl, rfl, rfl, h.srv, h.svc, h.fc, h.ft,
    by simp [bit_setBit, h.er3], h.ur, h.quiet, rfl⟩, rfl, rfl⟩

/-- A cycle with neither address out nor select out. -/
theorem bus_waits {c : Ctx} (h : Idle c) (had : c.addressed = true) (bo t b : T) (ho : up t OPR_OUT = true)
    (ha : up t ADR_OUT = false) (hs : up t SEL_OUT = false) :
    ∃ c', dev bo ⟨c, t, b⟩ = ⟨c', t &&& ~~~ADR_IN, b⟩ ∧ Idle c' ∧ c'.addressed = true ∧ c'.selected = false := by
  have hn := noReset ho
  generalize he : dev bo ⟨c, t, b⟩ = o
  bus44 he [hn, ha, hs, had, h.ig, bits08, h.sta, h.opr, h.request, h.sc]
  subst he
  exact ⟨_, rfl, ⟨h.loop, h.st0, h.st2, rfl, rfl, rfl, rfl, h.srv, h.svc, h.fc, h.ft,
    by simp [bit_clrBit, h.er3], h.ur, h.quiet, rfl⟩, rfl, rfl⟩

/-- Events with neither address out nor select out. -/
def Waits : Ev → Prop
  | .micro => True
  | .bus out _ => up out OPR_OUT = true ∧ up out ADR_OUT = false ∧ up out SEL_OUT = false

theorem cut_out (t : T) : (t &&& inTags) &&& outTags = 0#16 := by
  rw [BitVec.and_assoc, show inTags &&& outTags = 0#16 by decide]
  simp

theorem Waits.run {s : Line} (h : Idle s.c) (had : s.c.addressed = true) (hs : s.c.selected = false) (ht : s.tin &&& outTags = 0#16) (es : List Ev)
    (he : ∀ e ∈ es, Waits e) :
    ∃ s', s.run es = .ok s' ∧ Idle s'.c ∧ s'.c.addressed = true ∧ s'.tin &&& outTags = 0#16 := by
  induction es generalizing s with
  | nil => exact ⟨s, rfl, h, had, ht⟩
  | cons e es ih =>
    have h1 : ∃ s1, s.next e = .ok s1 ∧ Idle s1.c ∧ s1.c.addressed = true ∧ s1.c.selected = false ∧ s1.tin &&& outTags = 0#16 := by
      cases e with
      | micro =>
        obtain ⟨c', k1, k2, k5, k4, _⟩ := h.micro hs
        exact ⟨{ s with c := c' }, by unfold Line.next; rw [k1]; rfl, k2, k4.trans had, k5, ht⟩
      | bus out bo =>
        obtain ⟨w1, w2, w3⟩ := he _ List.mem_cons_self
        obtain ⟨c', k1, k2, k3, k6⟩ := bus_waits h had bo (s.tin ||| (out &&& outTags)) s.bin (opr_line _ _ w1)
          (by rw [up_adr, out_bit _ _ ht 14 (by decide) (by decide), ← up_adr]; exact w2)
          (by rw [up_sel, out_bit _ _ ht 15 (by decide) (by decide), ← up_sel]; exact w3)
        refine ⟨_, rfl, ?_⟩
        rw [k1]
        exact ⟨k2, k3, k6, cut_out _⟩
    obtain ⟨s1, n1, n2, n3, n5, n4⟩ := h1
    obtain ⟨s', m1, m2⟩ := ih n2 n3 n5 n4 fun e hx => he e (List.mem_cons_of_mem _ hx)
    refine ⟨s', ?_, m2⟩
    show (s.next e).bind _ = _
    rw [n1]
    exact m1

theorem takes_poll {c : Ctx} (h : Idle c) (had : c.addressed = true) (bo t b : T) (ho : up t OPR_OUT = true)
    (ha : up t ADR_OUT = false) (hs : up t SEL_OUT = true) :
    up (dev bo ⟨c, t, b⟩).tags SEL_OUT = false ∧ (dev bo ⟨c, t, b⟩).c.selected = true := by
  have hn := noReset ho
  generalize he : dev bo ⟨c, t, b⟩ = o
  cases ht : c.tr_1 <;> bus44 he [hn, ha, hs, had, h.ig, bits08, h.sta, h.opr, h.request, h.sc, h.svc, h.srv, ht] <;> subst he
  all_goals
    refine ⟨?_, rfl⟩
    tags44

/-- C124. In general the control unit keeps an address it was offered.  The channel puts an address
up without select out and takes it off again, and anything may happen without address out and
select out; when it then polls the control units, this one takes select out and counts as
selected, although it has nothing to report. -/
theorem C124_violated_takes_poll {s : Line} (h : Idle s.c) (ht : s.tin &&& outTags = 0#16) (bo : T)
    (hk : (bo &&& 0xf0#16) = s.c.addr ∨ parityOk bo = true) (offer : T) (o1 : up offer OPR_OUT = true)
    (o2 : up offer ADR_OUT = true) (o3 : up offer SEL_OUT = false) (es : List Ev) (he : ∀ e ∈ es, Waits e) :
    ∃ s', s.run (.bus offer bo :: es) = .ok s' ∧ Idle s'.c ∧
      ∀ bo' t b, up t OPR_OUT = true → up t ADR_OUT = false → up t SEL_OUT = true →
        up (dev bo' ⟨s'.c, t, b⟩).tags SEL_OUT = false ∧ (dev bo' ⟨s'.c, t, b⟩).c.selected = true := by
  obtain ⟨c', k1, k2, k3, k6⟩ := bus_offer h bo (s.tin ||| (offer &&& outTags)) s.bin (opr_line _ _ o1)
    (by rw [up_adr, out_bit _ _ ht 14 (by decide) (by decide), ← up_adr]; exact o2)
    (by rw [up_sel, out_bit _ _ ht 15 (by decide) (by decide), ← up_sel]; exact o3)
    (by unfold takes; simpa using hk)
  have e1 : ∃ s1, s.next (.bus offer bo) = .ok s1 ∧ Idle s1.c ∧ s1.c.addressed = true ∧ s1.c.selected = false ∧ s1.tin &&& outTags = 0#16 := by
    refine ⟨_, rfl, ?_⟩
    rw [k1]
    exact ⟨k2, k3, k6, cut_out _⟩
  obtain ⟨s1, n1, n2, n3, n5, n4⟩ := e1
  obtain ⟨s', m1, m2, m3, _⟩ := Waits.run n2 n3 n5 n4 es he
  refine ⟨s', ?_, m2, fun bo' t b h1 h2 h3 => takes_poll m2 m3 bo' t b h1 h2 h3⟩
  show (s.next _).bind _ = _
  rw [n1]
  exact m1

/-- C124. While it holds such an address the control unit takes address in of every other control
unit down. -/
theorem C124_violated_drops_address_in {c : Ctx} (h : Idle c) (had : c.addressed = true) (bo t b : T)
    (ho : up t OPR_OUT = true) (ha : up t ADR_OUT = false) (hs : up t SEL_OUT = false) :
    up (dev bo ⟨c, t, b⟩).tags ADR_IN = false := by
  obtain ⟨c', h1, _⟩ := bus_waits h had bo t b ho ha hs
  rw [h1]
  tags44

/-- C124. An address which is not taken does clear it. -/
theorem C124_cleared_partial {c : Ctx} (h : Idle c) (bo t b : T) (ho : up t OPR_OUT = true) (ha : up t ADR_OUT = true)
    (hn : (bo &&& 0xf0#16) ≠ c.addr) (hp : parityOk bo = false) : (dev bo ⟨c, t, b⟩).c.addressed = false := by
  obtain ⟨c', h1, _, _, h4, _⟩ := h.pass bo t b ho (.inl ⟨ha, by unfold takes; simp [hn, hp]⟩)
  rw [h1]
  exact h4

/-! ## A concrete case

A control unit at address 0x90 with one drive, number 0. -/

def oneDrive (d : Dasd.S) : BitVec 3 → Option Dasd.S := fun i => if i = 0#3 then some d else none

theorem oneDrive_quiet (t : Dasd.DiskType) : Quiet (oneDrive (Dasd.fresh t)) := by
  intro i d h
  unfold oneDrive at h
  split at h
  · cases h
    rfl
  · cases h

/-- It becomes idle. -/
theorem example_idle (t : Dasd.DiskType) : ∃ s, Line.run ⟨powerOn 0x90#16 (oneDrive (Dasd.fresh t)), 0#16, 0#16⟩
    (List.replicate 11 .micro) = .ok s ∧ Idle s.c ∧ s.tin &&& outTags = 0#16 ∧ s.c.addr = 0x90#16 ∧ s.c.addressed = false ∧
      ∀ i, (s.c.disk i).isSome = (oneDrive (Dasd.fresh t) i).isSome := by
  obtain ⟨s, h1, h2, _, h4⟩ := C123_power_on 0x90#16 (oneDrive (Dasd.fresh t)) (oneDrive_quiet t) 0#16 0#16 (by decide)
    (List.replicate 11 .micro) (by intro e he; rw [(List.mem_replicate.1 he).2]; exact True.intro)
  obtain ⟨h5, h6, h7, h8⟩ := h4 (by decide)
  exact ⟨s, h1, h5, by rw [h2]; decide, h7, h6, h8⟩

theorem selecting : Selecting 0xc200#16 := ⟨by decide, by decide, by decide, by decide⟩

theorem micros_hold (bo : T) : ∀ e ∈ List.replicate 13 Ev.micro, Holds bo e := by
  intro e he
  rw [(List.mem_replicate.1 he).2]
  exact True.intro

/-- Address 0x90 (parity bit on) is answered by address 0x90. -/
example (t : Dasd.DiskType) : ∃ s s', Line.run ⟨powerOn 0x90#16 (oneDrive (Dasd.fresh t)), 0#16, 0#16⟩
    (List.replicate 11 .micro) = .ok s ∧ s.run (.bus 0xc200#16 0x190#16 :: (List.replicate 13 .micro ++ [.bus 0xc200#16 0x190#16]))
      = .ok s' ∧ up s'.tin ADR_IN = true ∧ Shows s'.bin 0x90#8 := by
  obtain ⟨s, h1, h2, h3, h4, _, h6⟩ := example_idle t
  obtain ⟨s', k1, k2, _, _, k5⟩ := C120_selection h2 h3 0x190#16 (by rw [h4]; decide) (by decide)
    (by rw [h6]; rfl) _ _ selecting selecting _ (micros_hold _) (by decide)
  exact ⟨s, s', h1, k1, k2, k5⟩

/-- Address 0x30, which is not its own, is answered by address 0x90. -/
example (t : Dasd.DiskType) : ∃ s s', Line.run ⟨powerOn 0x90#16 (oneDrive (Dasd.fresh t)), 0#16, 0#16⟩
    (List.replicate 11 .micro) = .ok s ∧ s.run (.bus 0xc200#16 0x130#16 :: (List.replicate 13 .micro ++ [.bus 0xc200#16 0x130#16]))
      = .ok s' ∧ up s'.tin ADR_IN = true ∧ s'.bin = 0x190#16 := by
  obtain ⟨s, h1, h2, h3, h4, _, h6⟩ := example_idle t
  obtain ⟨s', k1, k2, _, k5⟩ := C116_violated_answers_others h2 h3 0x130#16 (by decide) (by rw [h4]; decide) (by decide)
    (by rw [h6]; rfl) _ _ selecting selecting _ (micros_hold _) (by decide)
  exact ⟨s, s', h1, k1, k2, k5.trans (by rw [h4]; decide)⟩

/-- Address 0x0e, of a printer, ends the simulator. -/
example (t : Dasd.DiskType) : ∃ s, Line.run ⟨powerOn 0x90#16 (oneDrive (Dasd.fresh t)), 0#16, 0#16⟩
    (List.replicate 11 .micro) = .ok s ∧ s.run (.bus 0xc200#16 0x00e#16 :: List.replicate 13 .micro) = .null := by
  obtain ⟨s, h1, h2, h3, h4, _, h6⟩ := example_idle t
  refine ⟨s, h1, C117_violated_null h2 h3 0x00e#16 (.inr (by decide)) ?_ _ selecting _ (micros_hold _) (by decide)⟩
  have := h6 6#3
  exact Option.isSome_eq_false_iff.1 (this.trans rfl) |> Option.isNone_iff_eq_none.1

/-- Operational in after a reset. -/
example (t : Dasd.DiskType) : ∃ s s', Line.run ⟨powerOn 0x90#16 (oneDrive (Dasd.fresh t)), 0#16, 0#16⟩
    (List.replicate 11 .micro) = .ok s ∧ s.run (.bus 0xc200#16 0x190#16 :: (List.replicate 13 .micro ++ [.bus 0xc200#16 0x190#16])
      ++ [.bus 0#16 0x100#16, .bus 0x200#16 0x100#16]) = .ok s' ∧ up s'.tin OPR_IN = true := by
  obtain ⟨s, h1, h2, h3, h4, _, h6⟩ := example_idle t
  obtain ⟨s', k1, k2⟩ := C121_violated_after_selection h2 h3 0x190#16 (by rw [h4]; decide) (by decide)
    (by rw [h6]; rfl) _ _ 0#16 0x200#16 selecting selecting (by unfold Resets; decide) (by decide) _ (micros_hold _) (by decide)
  exact ⟨s, s', h1, k1, k2⟩

/-- A poll taken after an address was offered. -/
example (t : Dasd.DiskType) : ∃ s s', Line.run ⟨powerOn 0x90#16 (oneDrive (Dasd.fresh t)), 0#16, 0#16⟩
    (List.replicate 11 .micro) = .ok s ∧ s.run [.bus 0x4200#16 0x00e#16, .bus 0x0200#16 0x100#16, .micro] = .ok s' ∧
      (dev 0x100#16 ⟨s'.c, 0x8200#16, 0#16⟩).c.selected = true := by
  obtain ⟨s, h1, h2, h3, h4, _⟩ := example_idle t
  obtain ⟨s', k1, _, k3⟩ := C124_violated_takes_poll h2 h3 0x00e#16 (.inr (by decide)) 0x4200#16 (by decide) (by decide) (by decide)
    [.bus 0x0200#16 0x100#16, .micro] (by
      intro e he
      rcases List.mem_cons.1 he with rfl | he
      · exact ⟨by decide, by decide, by decide⟩
      · rw [List.mem_singleton.1 he]
        exact True.intro)
  exact ⟨s, s', h1, k1, (k3 _ _ _ (by decide) (by decide) (by decide)).2⟩

/-- A drive due for a byte under write gate. -/
example (t : Dasd.DiskType) : ∃ (c : Ctx) (d : Dasd.S), c.disk 0#3 = some d ∧ c.UR &&& 0x0f#8 = 0#8 ∧ c.FT &&& 0x81#8 = 0x81#8 ∧
    c.FC &&& 0x04#8 ≠ 0#8 ∧ c.FC &&& 0x40#8 = 0#8 ∧ c.FC &&& 0x80#8 ≠ 0#8 ∧ c.FT &&& 0x08#8 ≠ 0#8 ∧ d.ty.rate ≤ d.step :=
  ⟨{ powerOn 0x90#16 (oneDrive { Dasd.fresh t with step := t.rate }) with FT := 0x89#8, FC := 0x84#8 },
    { Dasd.fresh t with step := t.rate }, rfl, (by decide : (0#8 : B) &&& 0x0f#8 = 0#8), (by decide : (0x89#8 : B) &&& 0x81#8 = 0x81#8),
    (by decide : (0x84#8 : B) &&& 0x04#8 ≠ 0#8), (by decide : (0x84#8 : B) &&& 0x40#8 = 0#8),
    (by decide : (0x84#8 : B) &&& 0x80#8 ≠ 0#8), (by decide : (0x89#8 : B) &&& 0x08#8 ≠ 0#8), Nat.le_refl _⟩

end Verif.Ctl2844
