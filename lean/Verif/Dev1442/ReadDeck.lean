import Verif.Dev1442.Read
/-!
# Reading a deck through the channel (C76, C77)
-/
namespace Verif.Dev1442
open Verif.Bus
open Verif.Card (Res Img)

/-! ## More about feeding -/

theorem z8 : (0 : Nat) < 256 := by decide

theorem feed_frame {s s' : S} (h : feed s = .ok s') : s' = { s with sense := s'.sense, k := s'.k } := by
  unfold feed at h
  split at h
  · have := Res.ok.inj h; rw [← this]
  · cases h1 : stackPunch s.k with
    | ok k1 =>
      simp only [h1, Res.bind] at h
      cases h2 : toReader (toPunch k1) with
      | ok k2 =>
        simp only [h2] at h
        have := Res.ok.inj h; rw [← this]
      | oob => simp [h2] at h
      | fuel => simp [h2] at h
    | oob => simp [h1, Res.bind] at h
    | fuel => simp [h1, Res.bind] at h

theorem toReader_cards {k : K} {c : Img} {q : List Img} (h : Card.Wf k.hop) (hq : k.hop.hopper = c :: q) (hm : Card.Card c) (hs : k.stop = false) :
    ∃ k', toReader k = .ok k' ∧ k'.eof = k.eof ∧ k'.hopCnt = q.length ∧ k'.rdy = decide (q ≠ [] ∨ k.eof = true) := by
  obtain ⟨c', r1, r2, r3, -, -⟩ := Card.readCard_cons h hq hm.2
  have hsz : Card.hopperSize c' = q.length := by
    unfold Card.hopperSize
    rw [← Card.hopper_length r2, r3]
  unfold toReader
  rw [if_neg (by rw [hs]; simp), r1]
  simp only [Res.bind, Option.isSome, Option.getD, hsz]
  refine ⟨_, rfl, ?_⟩
  have hlen : q.length = 0 ↔ q = [] := List.length_eq_zero_iff
  split
  · rename_i hc
    exact ⟨rfl, rfl, by simp [hlen.mp hc.1, hc.2]⟩
  · rename_i hc
    refine ⟨rfl, rfl, ?_⟩
    rw [hlen] at hc
    cases he : k.eof
    · have : q ≠ [] := fun hx => hc ⟨hx, he⟩
      simp [this]
    · simp

/-- A feed from a hopper with cards. -/
theorem feed_cards {s : S} {c : Img} {q : List Img} (h : Inv s) (hq : s.k.hop.hopper = c :: q) (hs : s.k.stop = false) :
    ∃ s', feed s = .ok s' ∧ Inv s' ∧ s'.status = s.status ∧ path s'.k = Spec.feed (path s.k) s.k.stkSel false ∧
      s'.k.rdrCol = 0 ∧ s'.k.stop = false ∧ s'.k.eof = s.k.eof ∧ s'.k.hopCnt = q.length ∧ s'.k.rdy = decide (q ≠ [] ∨ s.k.eof = true) ∧
      s'.sense = (if q ≠ [] ∨ s.k.eof = true then s.sense &&& (0xff - eInterv) else s.sense ||| eInterv) := by
  obtain ⟨s', e1, e2, e3, e4⟩ := feed_spec h
  rw [if_neg (by simp [hq]), hs] at e4
  refine ⟨s', e1, e2, e3, e4, ?_⟩
  unfold feed at e1
  rw [if_neg (by
    rintro ⟨hx, -⟩
    unfold Card.hopperSize at hx
    rw [← Card.hopper_length h.k.hop, hq] at hx
    cases hx)] at e1
  obtain ⟨k1, a1, a2, a3, a4, a5, a6, a7, a8, a9, a10⟩ := stackPunch_spec h.k
  rw [a1] at e1
  simp only [Res.bind] at e1
  have b5 : (toPunch k1).hop = s.k.hop ∧ (toPunch k1).stop = false ∧ (toPunch k1).eof = s.k.eof := by
    unfold toPunch; split <;> exact ⟨a3, a7.trans hs, a8⟩
  have hm : Card.Card c := h.k.hopC c (by rw [hq]; simp)
  obtain ⟨k2, r1, r2, r3, r4⟩ := toReader_cards (k := toPunch k1) (by rw [b5.1]; exact h.k.hop) (by rw [b5.1]; exact hq) hm b5.2.1
  rw [r1] at e1
  rw [b5.2.2] at r2 r4
  have := Res.ok.inj e1
  rw [← this]
  refine ⟨rfl, rfl, r2, r3, r4, ?_⟩
  show (if k2.rdy = true then _ else _) = _
  rw [r4]
  by_cases hc : q ≠ [] ∨ s.k.eof = true
  · rw [if_pos hc, if_pos (by simpa using hc)]
  · rw [if_neg hc, if_neg (by simpa using hc)]

/-! ## One read command -/

/-- The device when the last column was sent and the card is being fed. -/
def feeding (addr cmd : Nat) (k : K) (dep : Bool) (x d : Nat) : S :=
  { reading addr cmd k dep x d 80 with st := .idle, selected := false, dataEnd := true, evs := [.feed] }

/-- The device when the status of the feed was accepted. -/
def ended (addr : Nat) (k : K) (x d : Nat) : S :=
  { st := .idle, addr, request := false, stacked := false, selected := false, disconnect := false, busy := false, sense := x, cmd := 0, status := 0, data := d, cmdDone := false, dataRdy := false, dataEnd := false, dataEndPost := false, feedDone := true, evs := [], k }

theorem readStart (s : S) (bi cmd : Nat) (hc : cmd = 2 ∨ cmd = 0x22) (h : Spec.AtRest s) (he : s.evs = []) (hx : s.sense < 256) (hr : s.k.rdy = true) :
    ∃ d, (Spec.initialSelection dev ⟨s, Spec.rest, bi⟩ (s.addr % 256) cmd true).bind (fun L1 => (Spec.accept dev L1 0).bind fun L2 => .ok (L1.bi, L2)) =
      .ok (Spec.byte 0, ⟨reading s.addr cmd { s.k with stkSel := decide (cmd = 0x22) } s.dataEndPost (s.sense &&& eInterv) d s.k.rdrCol, held, Spec.byte 0⟩) := by
  have hsel : selectedWith s cmd = { reading s.addr cmd { s.k with stkSel := decide (cmd = 0x22) } s.dataEndPost (s.sense &&& eInterv) s.data s.k.rdrCol with st := .status } := by
    unfold selectedWith
    rcases hc with rfl | rfl
    · simp [deviceCmd, cmdRead, tst, hr, addEv, he, cmdEnd, reading, h.stacked]
    · simp [deviceCmd, cmdRead, tst, hr, addEv, he, cmdEnd, reading, h.stacked]
  refine ⟨s.data, bind_ok (initialSelection_eq s bi cmd true h hx (by rcases hc with rfl | rfl <;> decide)) ?_⟩
  simp only [hsel]
  have hst : ∀ b, { reading s.addr cmd { s.k with stkSel := b } s.dataEndPost (s.sense &&& eInterv) s.data s.k.rdrCol with st := .status }.status = 0 := fun _ => rfl
  refine bind_ok (a := ⟨reading s.addr cmd { s.k with stkSel := decide (cmd = 0x22) } s.dataEndPost (s.sense &&& eInterv) s.data s.k.rdrCol, held, Spec.byte 0⟩) ?_ rfl
  unfold Spec.accept
  refine bind_ok (poll_ok (s := { reading s.addr cmd { s.k with stkSel := decide (cmd = 0x22) } s.dataEndPost (s.sense &&& eInterv) s.data s.k.rdrCol with disconnect := true }) (t := { held with srv := true }) (bi := Spec.byte 0) ?_) (poll_ok ?_)
  · rcases hc with rfl | rfl
    · simp [dev, statusAccept, statusAccepted, reading, held, Spec.rest, withPar_ok 0 (by decide), Res.bind]
    · simp [dev, statusAccept, statusAccepted, reading, held, Spec.rest, withPar_ok 0 (by decide), Res.bind]
  · rcases hc with rfl | rfl
    · rfl
    · rfl

theorem readEnd (addr cmd : Nat) (hc : cmd = 2 ∨ cmd = 0x22) (k : K) (dep : Bool) (x d bi : Nat) :
    Spec.fire ⟨reading addr cmd k dep x d 80, held, bi⟩ .read = .ok ⟨{ reading addr cmd k dep x d 80 with status := 8, dataEnd := true, evs := [.feed], request := true }, held, bi⟩ ∧
    Spec.poll dev ⟨{ reading addr cmd k dep x d 80 with status := 8, dataEnd := true, evs := [.feed], request := true }, held, bi⟩ id 0 =
      .ok ⟨{ reading addr cmd k dep x d 80 with st := .endStatus, status := 8, dataEnd := true, evs := [.feed] }, held, bi⟩ ∧
    Spec.poll dev ⟨{ reading addr cmd k dep x d 80 with st := .endStatus, status := 8, dataEnd := true, evs := [.feed] }, held, bi⟩ id 0 =
      .ok ⟨{ reading addr cmd k dep x d 80 with st := .endAccept, status := 8, dataEnd := true, evs := [.feed] }, { held with staIn := true }, Spec.byte 8⟩ ∧
    Spec.poll dev ⟨{ reading addr cmd k dep x d 80 with st := .endAccept, status := 8, dataEnd := true, evs := [.feed] }, { held with staIn := true }, Spec.byte 8⟩ (fun t => { t with srv := true, hld := false }) 0 =
      .ok ⟨{ reading addr cmd k dep x d 80 with st := .statusWait, dataEnd := true, evs := [.feed] }, { Spec.rest with srv := true }, Spec.byte 8⟩ ∧
    Spec.poll dev ⟨{ reading addr cmd k dep x d 80 with st := .statusWait, dataEnd := true, evs := [.feed] }, { Spec.rest with srv := true }, Spec.byte 8⟩ (fun t => { t with srv := false }) 0 =
      .ok ⟨feeding addr cmd k dep x d, Spec.rest, Spec.byte 8⟩ := by
  refine ⟨?_, ?_, ?_, ?_, rfl⟩
  · unfold Spec.fire
    refine bind_ok (a := { reading addr cmd k dep x d 80 with status := 8, dataEnd := true, evs := [.feed], request := true }) ?_ rfl
    have hf : step (reading addr cmd k dep x d 80) (.fire .read) = readCb { reading addr cmd k dep x d 80 with evs := [] } := rfl
    rw [hf]
    unfold readCb
    simp [reading, addEv, sChnEnd]
  · apply poll_ok
    rcases hc with rfl | rfl <;> rfl
  · apply poll_ok
    simp [dev, endStatus, reading, held, Spec.rest, withPar_ok 8 (by decide), Res.bind]
  · apply poll_ok
    simp [dev, endAccept, endAccepted, reading, held, Spec.rest, withPar_ok 8 (by decide), Res.bind]

theorem readStatus (addr cmd : Nat) (k : K) (dep : Bool) (x d : Nat) (st : Nat) (h0 : st ≠ 0) (h8 : st < 256) (k' : K) (x' bi : Nat) :
    Spec.service ⟨{ feeding addr cmd k dep x d with status := st, busy := false, cmdDone := true, feedDone := true, request := true, evs := [], k := k', sense := x' }, Spec.rest, bi⟩ =
      .ok (⟨ended addr k' x' d, Spec.rest, Spec.byte st⟩, Spec.byte (addr % 256), Spec.byte st) := by
  let s8 : S := { feeding addr cmd k dep x d with status := st, busy := false, cmdDone := true, feedDone := true, request := true, evs := [], k := k', sense := x' }
  have p1 : Spec.poll dev ⟨s8, Spec.rest, bi⟩ id 0 = .ok ⟨s8, { Spec.rest with reqIn := true }, bi⟩ := rfl
  have p2 : Spec.poll dev ⟨s8, { Spec.rest with reqIn := true }, bi⟩ (fun t => { t with sel := true }) 0 =
      .ok ⟨{ s8 with st := .initSel, selected := true }, { Spec.rest with oprIn := true }, Spec.byte (addr % 256)⟩ := by
    rw [← bytePar_eq]; rfl
  have p3 : Spec.poll dev ⟨{ s8 with st := .initSel, selected := true }, { Spec.rest with oprIn := true }, Spec.byte (addr % 256)⟩ id 0 =
      .ok ⟨{ s8 with st := .command, selected := true }, { Spec.rest with oprIn := true, adrIn := true }, Spec.byte (addr % 256)⟩ := by
    rw [← bytePar_eq]; rfl
  have p4 : Spec.poll dev ⟨{ s8 with st := .command, selected := true }, { Spec.rest with oprIn := true, adrIn := true }, Spec.byte (addr % 256)⟩ (fun t => { t with cmd := true }) (Spec.byte 0) =
      .ok ⟨{ s8 with st := .status, selected := true, request := false }, { Spec.rest with oprIn := true, cmd := true }, Spec.byte (addr % 256)⟩ := by
    apply poll_ok
    simp [dev, command, commandOut, parBad_byte 0 (by decide), s8, feeding, reading, Spec.rest, h0, bytePar_eq]
  have p5 : Spec.poll dev ⟨{ s8 with st := .status, selected := true, request := false }, { Spec.rest with oprIn := true, cmd := true }, Spec.byte (addr % 256)⟩ (fun t => { t with cmd := false }) 0 =
      .ok ⟨{ s8 with st := .statusAccept, selected := true, request := false }, { Spec.rest with oprIn := true, staIn := true }, Spec.byte st⟩ := by
    apply poll_ok
    simp [dev, status, s8, feeding, reading, Spec.rest, withPar_ok st h8, Res.bind]
  have p6 : Spec.accept dev ⟨{ s8 with st := .statusAccept, selected := true, request := false }, { Spec.rest with oprIn := true, staIn := true }, Spec.byte st⟩ 0 =
      .ok ⟨ended addr k' x' d, Spec.rest, Spec.byte st⟩ := by
    unfold Spec.accept
    refine bind_ok (poll_ok (s := { ended addr k' x' d with st := .statusWait, selected := true }) (t := { Spec.rest with srv := true }) (bi := Spec.byte st) ?_) rfl
    simp [dev, statusAccept, statusAccepted, s8, feeding, reading, ended, Spec.rest, withPar_ok st h8, Res.bind]
  exact bind_ok p1 (bind_ok p2 (bind_ok p3 (bind_ok p4 (bind_ok p5 (bind_ok p6 rfl)))))

/-- A device at rest with a card at the read station and `q` in the hopper. -/
structure Spec.Loaded (s : S) (c : Img) (q : List Img) : Prop where
  inv : Inv s
  rest : Spec.AtRest s
  evs : s.evs = []
  reader : (path s.k).reader = some c
  hopper : (path s.k).hopper = q
  col : s.k.rdrCol = 0
  cnt : s.k.hopCnt = q.length
  stop : s.k.stop = false
  rdy : s.k.rdy = decide (q ≠ [] ∨ s.k.eof = true)

theorem reader_some {k : K} {c : Img} (h : (path k).reader = some c) : k.rdrFull = true ∧ k.rdrCard = c := by
  unfold path at h
  simp only at h
  split at h
  · rename_i hf; exact ⟨hf, by simpa using h⟩
  · cases h

/-- The device when it presents the ending status. -/
def presenting (addr cmd : Nat) (k : K) (dep : Bool) (x d : Nat) : S :=
  { reading addr cmd k dep x d 80 with st := .endAccept, status := 8, dataEnd := true, evs := [.feed] }

/-- A read command up to its ending status. -/
theorem read_data (s : S) (bi cmd : Nat) (hc : cmd = 2 ∨ cmd = 0x22) (c : Img) (q : List Img) (h : Spec.Loaded s c q) (hq : q ≠ [] ∨ s.k.eof = true) :
    ∃ (vs : List Nat) (x d : Nat), vs.length = 80 ∧ Spec.readsCard c vs ∧ x < 256 ∧
      ((x = s.sense &&& eInterv ∧ ¬ Spec.badCard c) ∨ (x = (s.sense &&& eInterv) ||| eDatChk ∧ Spec.badCard c)) ∧
      Spec.readData ⟨s, Spec.rest, bi⟩ (s.addr % 256) cmd =
        .ok (⟨presenting s.addr cmd { s.k with stkSel := decide (cmd = 0x22) } s.dataEndPost x d, { held with staIn := true }, Spec.byte 8⟩, Spec.byte 0, vs.map Spec.byte) := by
  obtain ⟨hf, hcd⟩ := reader_some h.reader
  have hcard : Card.Card c := by rw [← hcd]; exact h.inv.k.rdr
  obtain ⟨d0, p1⟩ := readStart s bi cmd hc h.rest h.evs h.inv.sense (by rw [h.rdy]; simpa using hq)
  rw [h.col] at p1
  obtain ⟨vs, x, d, bi2, p2, p3, p4, p5, p6⟩ := takeMany_eq s.addr cmd hc { s.k with stkSel := decide (cmd = 0x22) } s.dataEndPost h.inv.k.rdr 80 0 (s.sense &&& eInterv) d0 (Spec.byte 0) rfl (and8 h.inv.sense)
  refine ⟨vs, x, d, p3, ⟨by rw [p3, hcard.1], ?_⟩, p5, ?_, ?_⟩
  · intro i c' v h1 h2
    refine p4 i c' v ?_ h2
    show s.k.rdrCard[0 + i]? = _
    rw [hcd, Nat.zero_add]; exact h1
  · have e : ({ s.k with stkSel := decide (cmd = 0x22) } : K).rdrCard.drop 0 = c := hcd
    rw [e] at p6
    exact p6
  · obtain ⟨e1, e2, e3, -, -⟩ := readEnd s.addr cmd hc { s.k with stkSel := decide (cmd = 0x22) } s.dataEndPost x d bi2
    unfold Spec.readData
    cases hi : Spec.initialSelection dev ⟨s, Spec.rest, bi⟩ (s.addr % 256) cmd true with
    | ok L1 =>
      rw [hi] at p1
      simp only [Res.bind] at p1 ⊢
      cases ha : Spec.accept dev L1 0 with
      | ok L2 =>
        rw [ha] at p1
        simp only [Res.ok.injEq, Prod.mk.injEq] at p1
        obtain ⟨f1, f2⟩ := p1
        subst f2
        simp only [p2, e1, e2, e3]
        rw [f1]
        rfl
      | oob => rw [ha] at p1; cases p1
      | fuel => rw [ha] at p1; cases p1
    | oob => rw [hi] at p1; cases p1
    | fuel => rw [hi] at p1; cases p1

/-- The end of a read command, given what the feed does. -/
theorem read_feed (addr cmd : Nat) (hc : cmd = 2 ∨ cmd = 0x22) (k : K) (dep : Bool) (x d : Nat) (st x' : Nat) (k' : K)
    (hfeed : feedCb { feeding addr cmd k dep x d with evs := [] } =
      .ok { feeding addr cmd k dep x d with status := st, busy := false, cmdDone := true, feedDone := true, request := true, evs := [], k := k', sense := x' }) :
    Spec.readFeed ⟨presenting addr cmd k dep x d, { held with staIn := true }, Spec.byte 8⟩ =
      .ok ⟨{ feeding addr cmd k dep x d with status := st, busy := false, cmdDone := true, feedDone := true, request := true, evs := [], k := k', sense := x' }, Spec.rest, Spec.byte 8⟩ := by
  obtain ⟨-, -, -, e4, e5⟩ := readEnd addr cmd hc k dep x d 0
  unfold Spec.readFeed
  refine bind_ok e4 (bind_ok e5 ?_)
  unfold Spec.fire
  exact bind_ok hfeed rfl

/-- The state in which the feed of a read starts is within the invariant. -/
theorem feeding_inv {s : S} (h : Inv s) (cmd : Nat) (b : Bool) (x d : Nat) (hx : x < 256) (st : Nat) (hst : st < 256) (e : Bool) :
    Inv { feeding s.addr cmd { s.k with stkSel := b } s.dataEndPost x d with evs := [], status := st, busy := false, cmdDone := true, feedDone := true, request := true, k := { { s.k with stkSel := b, rdrCol := 80 } with eof := e } } :=
  ⟨hst, hx, ⟨h.k.hop, h.k.hopC, h.k.stk0, h.k.stk0C, h.k.stk1, h.k.stk1C, h.k.rdr, h.k.pch⟩⟩

/-- **C76**, one card: with a card at the read station and more in the hopper, a read command delivers the 80 bytes of
that card with good parity, channel end, then by a request for service device end, with unit check exactly when some
column is invalid or the reader is no longer ready. The next card is then at the read station. -/
theorem C76_read_card (s : S) (bi cmd : Nat) (hc : cmd = 2 ∨ cmd = 0x22) (c c' : Img) (q : List Img) (h : Spec.Loaded s c (c' :: q)) :
    ∃ (s' : S) (vs : List Nat) (st : Nat), Spec.readCard ⟨s, Spec.rest, bi⟩ (s.addr % 256) cmd =
        .ok (⟨s', Spec.rest, Spec.byte st⟩, { first := Spec.byte 0, data := vs.map Spec.byte, ending := Spec.byte sChnEnd, addr := Spec.byte (s.addr % 256), last := Spec.byte st }) ∧
      Spec.readsCard c vs ∧ Spec.Loaded s' c' q ∧ s'.addr = s.addr ∧ s'.k.eof = s.k.eof ∧ path s'.k = Spec.feed (path s.k) (decide (cmd = 0x22)) false ∧
      ((st = sDevEnd ∧ ¬ Spec.badCard c ∧ (q ≠ [] ∨ s.k.eof = true)) ∨ (st = sDevEnd ||| sUnitChk ∧ (Spec.badCard c ∨ (q = [] ∧ s.k.eof = false)))) := by
  obtain ⟨vs, x, d, r1, r2, r3, r4, r5⟩ := read_data s bi cmd hc c (c' :: q) h (Or.inl (by simp))
  have hinv := feeding_inv h.inv cmd (decide (cmd = 0x22)) x d r3 (0 ||| sDevEnd) (by decide) s.k.eof
  obtain ⟨s8, f1, f2, f3, f4, f5, f6, f7, f8, f9, f10⟩ := feed_cards hinv h.hopper h.stop
  have f0 := feed_frame f1
  have hfeed : feedCb { feeding s.addr cmd { s.k with stkSel := decide (cmd = 0x22) } s.dataEndPost x d with evs := [] } =
      .ok { feeding s.addr cmd { s.k with stkSel := decide (cmd = 0x22) } s.dataEndPost x d with status := if s8.sense ≠ 0 then 6 else 4, busy := false, cmdDone := true, feedDone := true, request := true, evs := [], k := s8.k, sense := s8.sense } := by
    unfold feedCb
    simp only
    rw [if_neg (by
      rintro ⟨hx, -⟩
      have : s.k.hopCnt = 0 := hx
      rw [h.cnt] at this
      cases this)]
    refine bind_ok f1 ?_
    rw [f0]
    by_cases hz : s8.sense = 0
    · simp only [hz, ne_eq, not_true_eq_false, if_false]; rfl
    · simp only [hz, ne_eq, not_false_eq_true, if_true]; rfl
  have hfin := read_feed s.addr cmd hc { s.k with stkSel := decide (cmd = 0x22) } s.dataEndPost x d _ _ _ hfeed
  have hst0 : (if s8.sense ≠ 0 then 6 else 4) ≠ 0 := by split <;> decide
  have hst8 : (if s8.sense ≠ 0 then 6 else 4) < 256 := by split <;> decide
  have hserv := readStatus s.addr cmd { s.k with stkSel := decide (cmd = 0x22) } s.dataEndPost x d _ hst0 hst8 s8.k s8.sense (Spec.byte 8)
  refine ⟨ended s.addr s8.k s8.sense d, vs, if s8.sense ≠ 0 then 6 else 4, bind_ok r5 (bind_ok hfin (bind_ok hserv rfl)), r2, ?_, rfl, f7, f4, ?_⟩
  · refine ⟨⟨z8, f2.sense, f2.k⟩, ⟨rfl, rfl, rfl, rfl⟩, rfl, ?_, ?_, f5, f8, f6, ?_⟩
    · show (path s8.k).reader = _
      rw [f4]
      show (path s.k).hopper.head? = _
      rw [h.hopper]; rfl
    · show (path s8.k).hopper = _
      rw [f4]
      show (path s.k).hopper.tail = _
      rw [h.hopper]; rfl
    · show s8.k.rdy = _
      rw [f9]
      show _ = decide (q ≠ [] ∨ s8.k.eof = true)
      rw [f7]
  · have f10' : s8.sense = (if q ≠ [] ∨ s.k.eof = true then x &&& (0xff - eInterv) else x ||| eInterv) := f10
    have a1 : (s.sense &&& eInterv) &&& (0xff - eInterv) = 0 := by
      rw [Nat.and_assoc]; exact Nat.and_zero _
    have a2 : ((s.sense &&& eInterv) ||| eDatChk) &&& (0xff - eInterv) = 8 := by
      rw [Nat.and_or_distrib_right, a1]; rfl
    have a3 : ∀ y : Nat, y ||| eInterv ≠ 0 := by
      intro y hy
      have := Nat.or_eq_zero_iff.mp hy
      exact absurd this.2 (by decide)
    by_cases hr : q ≠ [] ∨ s.k.eof = true
    · rw [if_pos hr] at f10'
      rcases r4 with ⟨g1, g2⟩ | ⟨g1, g2⟩
      · left
        rw [g1, a1] at f10'
        exact ⟨by rw [f10']; rfl, g2, hr⟩
      · right
        rw [g1, a2] at f10'
        exact ⟨by rw [f10']; rfl, Or.inl g2⟩
    · rw [if_neg hr] at f10'
      right
      refine ⟨by rw [f10', if_pos (a3 x)]; rfl, Or.inr ?_⟩
      constructor
      · exact Classical.byContradiction (fun hx => hr (Or.inl hx))
      · cases he : s.k.eof
        · rfl
        · exact absurd (Or.inr he) hr

/-- **C76**, the last card: with end of file pressed and an empty hopper a read command delivers the card, and its final
status has unit exception. (C77, violated) The card does not leave the read station. -/
theorem C76_read_last (s : S) (bi cmd : Nat) (hc : cmd = 2 ∨ cmd = 0x22) (c : Img) (h : Spec.Loaded s c []) (he : s.k.eof = true) :
    ∃ (s' : S) (vs : List Nat), Spec.readCard ⟨s, Spec.rest, bi⟩ (s.addr % 256) cmd =
        .ok (⟨s', Spec.rest, Spec.byte (sDevEnd ||| sUnitExp)⟩, { first := Spec.byte 0, data := vs.map Spec.byte, ending := Spec.byte sChnEnd, addr := Spec.byte (s.addr % 256), last := Spec.byte (sDevEnd ||| sUnitExp) }) ∧
      Spec.readsCard c vs ∧ Inv s' ∧ Spec.AtRest s' ∧ s'.k.rdy = false ∧ s'.k.eof = false ∧ path s'.k = path s.k := by
  obtain ⟨vs, x, d, r1, r2, r3, r4, r5⟩ := read_data s bi cmd hc c [] h (Or.inr he)
  have hinv := feeding_inv h.inv cmd (decide (cmd = 0x22)) x d r3 (0 ||| sDevEnd ||| sUnitExp) (by decide) false
  obtain ⟨s8, f1, f2, f3, f4⟩ := feed_spec hinv
  have hnil : s.k.hop.hopper = [] := h.hopper
  rw [if_pos ⟨hnil, rfl⟩] at f4
  have f0 := feed_frame f1
  have hrdy : s8.k.rdy = false ∧ s8.k.eof = false := by
    unfold feed at f1
    rw [if_pos ⟨by
      unfold Card.hopperSize
      rw [← Card.hopper_length hinv.k.hop]
      show s.k.hop.hopper.length = 0
      rw [hnil]; rfl, rfl⟩] at f1
    have := Res.ok.inj f1
    rw [← this]
    exact ⟨rfl, rfl⟩
  have hfeed : feedCb { feeding s.addr cmd { s.k with stkSel := decide (cmd = 0x22) } s.dataEndPost x d with evs := [] } =
      .ok { feeding s.addr cmd { s.k with stkSel := decide (cmd = 0x22) } s.dataEndPost x d with status := 5, busy := false, cmdDone := true, feedDone := true, request := true, evs := [], k := s8.k, sense := s8.sense } := by
    unfold feedCb
    simp only
    rw [if_pos ⟨h.cnt, he⟩]
    rw [f0] at f1
    exact f1
  have hfin := read_feed s.addr cmd hc { s.k with stkSel := decide (cmd = 0x22) } s.dataEndPost x d _ _ _ hfeed
  have hserv := readStatus s.addr cmd { s.k with stkSel := decide (cmd = 0x22) } s.dataEndPost x d 5 (by decide) (by decide) s8.k s8.sense (Spec.byte 8)
  exact ⟨ended s.addr s8.k s8.sense d, vs, bind_ok r5 (bind_ok hfin (bind_ok hserv rfl)), r2, ⟨z8, f2.sense, f2.k⟩, ⟨rfl, rfl, rfl, rfl⟩, hrdy.1, hrdy.2, f4⟩

/-! ## A deck -/

/-- `n` read commands. -/
def Spec.readCards (addr cmd : Nat) : Nat → Spec.Link S → Res (Spec.Link S × List Spec.Got)
  | 0, L => .ok (L, [])
  | n + 1, L => (Spec.readCard L addr cmd).bind fun a => (readCards addr cmd n a.1).bind fun b => .ok (b.1, a.2 :: b.2)

/-- What the channel got from each read are the bytes of each card, in order. -/
inductive Spec.gotCards : List Img → List Spec.Got → Prop where
  | nil : gotCards [] []
  | cons {m : Img} {g : Spec.Got} {ms : List Img} {gs : List Spec.Got} (vs : List Nat) (h : Spec.readsCard m vs) (hg : g.data = vs.map Spec.byte)
      (hf : g.first = Spec.byte 0) (he : g.ending = Spec.byte sChnEnd) (t : gotCards ms gs) : gotCards (m :: ms) (g :: gs)

/-- **C76**: with end of file pressed, as many read commands as there are cards deliver the whole deck, card by card in
the order of the hopper, and exactly the last one ends with unit exception. -/
theorem C76_read_deck (cmd : Nat) (hc : cmd = 2 ∨ cmd = 0x22) : ∀ (q : List Img) (s : S) (bi : Nat) (c : Img), Spec.Loaded s c q → s.k.eof = true →
    ∃ (L : Spec.Link S) (gs : List Spec.Got), Spec.readCards (s.addr % 256) cmd (q.length + 1) ⟨s, Spec.rest, bi⟩ = .ok (L, gs) ∧ Spec.gotCards (c :: q) gs ∧
      (∀ (i : Nat) (g : Spec.Got), gs[i]? = some g → (g.last = Spec.byte (sDevEnd ||| sUnitExp) ↔ i = q.length)) := by
  intro q
  induction q with
  | nil =>
    intro s bi c h he
    obtain ⟨s', vs, e1, e2, -⟩ := C76_read_last s bi cmd hc c h he
    refine ⟨_, _, bind_ok e1 (bind_ok rfl rfl), .cons vs e2 rfl rfl rfl .nil, ?_⟩
    intro i g hg
    cases i with
    | zero => simp only [List.getElem?_cons_zero, Option.some.injEq] at hg; rw [← hg]; exact ⟨fun _ => rfl, fun _ => rfl⟩
    | succ i => simp at hg
  | cons c' q ih =>
    intro s bi c h he
    obtain ⟨s', vs, st, e1, e2, e3, e4, e5, e6, e7⟩ := C76_read_card s bi cmd hc c c' q h
    obtain ⟨L, gs, f1, f2, f3⟩ := ih s' (Spec.byte st) c' e3 (e5.trans he)
    rw [e4] at f1
    refine ⟨L, _, bind_ok e1 (bind_ok f1 rfl), .cons vs e2 rfl rfl rfl f2, ?_⟩
    intro i g hg
    cases i with
    | zero =>
      simp only [List.getElem?_cons_zero, Option.some.injEq] at hg
      rw [← hg]
      constructor
      · intro hx
        exfalso
        have hx' : Spec.byte st = Spec.byte (sDevEnd ||| sUnitExp) := hx
        rcases e7 with ⟨g1, -⟩ | ⟨g1, -⟩ <;> rw [g1] at hx' <;> revert hx' <;> decide
      · intro hx; cases hx
    | succ i =>
      have := f3 i g (by simpa using hg)
      rw [this]
      simp

/-- **C44**, violated: when hold out stays up after the ending status of a read, the device, which gave up the interface
by dropping operational in, later raises status in without it. -/
theorem C44_violated_status_without_operational (s : S) (bi cmd : Nat) (hc : cmd = 2 ∨ cmd = 0x22) (c c' : Img) (q : List Img) (h : Spec.Loaded s c (c' :: q)) :
    ∃ L5 a L7 L10 : _, Spec.readData ⟨s, Spec.rest, bi⟩ (s.addr % 256) cmd = .ok (L5, a) ∧
      Spec.accept dev L5 0 = .ok L7 ∧ L7.t.oprIn = false ∧ L7.t.staIn = false ∧
      ((Spec.fire L7 .feed).bind fun L8 => (Spec.poll dev L8 id 0).bind fun L9 => Spec.poll dev L9 id 0) = .ok L10 ∧
      L10.t.staIn = true ∧ L10.t.oprIn = false := by
  obtain ⟨vs, x, d, r1, r2, r3, r4, r5⟩ := read_data s bi cmd hc c (c' :: q) h (Or.inl (by simp))
  have hinv := feeding_inv h.inv cmd (decide (cmd = 0x22)) x d r3 (0 ||| sDevEnd) (by decide) s.k.eof
  have hinv' : Inv { presenting s.addr cmd { s.k with stkSel := decide (cmd = 0x22) } s.dataEndPost x d with st := .waitDevend, status := 0 ||| sDevEnd, evs := [], busy := false, cmdDone := true, feedDone := true, request := true } :=
    ⟨show 0 ||| sDevEnd < 256 from by decide, r3, hinv.k⟩
  obtain ⟨s8, f1, f2, f3, f4, -⟩ := feed_cards hinv' h.hopper h.stop
  have f0 := feed_frame f1
  have hstep : step { presenting s.addr cmd { s.k with stkSel := decide (cmd = 0x22) } s.dataEndPost x d with st := .waitDevend, status := 0 } (.fire .feed) =
      .ok { presenting s.addr cmd { s.k with stkSel := decide (cmd = 0x22) } s.dataEndPost x d with st := .waitDevend, status := (if s8.sense ≠ 0 then 6 else 4), evs := [], busy := false, cmdDone := true, feedDone := true, request := true, k := s8.k, sense := s8.sense } := by
    have hf : step { presenting s.addr cmd { s.k with stkSel := decide (cmd = 0x22) } s.dataEndPost x d with st := .waitDevend, status := 0 } (.fire .feed) =
      feedCb { presenting s.addr cmd { s.k with stkSel := decide (cmd = 0x22) } s.dataEndPost x d with st := .waitDevend, status := 0, evs := [] } := rfl
    rw [hf]
    unfold feedCb
    simp only
    rw [if_neg (by
      rintro ⟨hx, -⟩
      have : s.k.hopCnt = 0 := hx
      rw [h.cnt] at this
      cases this)]
    refine bind_ok f1 ?_
    rw [f0]
    by_cases hz : s8.sense = 0
    · simp only [hz, ne_eq, not_true_eq_false, if_false]; rfl
    · simp only [hz, ne_eq, not_false_eq_true, if_true]; rfl
  refine ⟨_, _, ⟨{ presenting s.addr cmd { s.k with stkSel := decide (cmd = 0x22) } s.dataEndPost x d with st := .waitDevend, status := 0 }, { Spec.rest with hld := true }, Spec.byte 8⟩,
    ⟨{ presenting s.addr cmd { s.k with stkSel := decide (cmd = 0x22) } s.dataEndPost x d with st := .statusAccept, status := (if s8.sense ≠ 0 then 6 else 4), evs := [], busy := false, cmdDone := true, feedDone := true, request := false, k := s8.k, sense := s8.sense }, { Spec.rest with hld := true, staIn := true }, Spec.byte (if s8.sense ≠ 0 then 6 else 4)⟩, r5, ?_, rfl, rfl, ?_, rfl, rfl⟩
  · unfold Spec.accept
    refine bind_ok (poll_ok (s := { presenting s.addr cmd { s.k with stkSel := decide (cmd = 0x22) } s.dataEndPost x d with st := .statusWait, status := 0 }) (t := { Spec.rest with hld := true, srv := true }) (bi := Spec.byte 8) ?_) rfl
    simp [dev, endAccept, endAccepted, presenting, reading, held, Spec.rest, withPar_ok 8 (by decide), Res.bind]
  · unfold Spec.fire
    refine bind_ok (bind_ok hstep rfl) (bind_ok rfl (poll_ok ?_))
    have hst8 : (if s8.sense ≠ 0 then 6 else 4) < 256 := by split <;> decide
    show (withPar (if s8.sense ≠ 0 then 6 else 4)).bind _ = _
    rw [withPar_ok _ hst8]
    rfl

end Verif.Dev1442
