import Verif.Dev1442.Path
/-!
# Histories of the 1442 (C42, C44)
-/
namespace Verif.Dev1442
open Verif.Bus
open Verif.Card (Res Img)

/-- The stacker selection does not matter for where the cards are. -/
theorem path_stkSel (k : K) (b : Bool) : path { k with stkSel := b } = path k := rfl

theorem KInv.stkSel {k : K} (h : KInv k) (b : Bool) : KInv { k with stkSel := b } := ⟨h.hop, h.hopC, h.stk0, h.stk0C, h.stk1, h.stk1C, h.rdr, h.pch⟩

/-! ## Commands and bus calls move no card -/

theorem cmdEnd_spec {s s0 : S} {b : Bool} (hk : s.k = { s0.k with stkSel := b }) (h2 : s.sense < 256) (h : s.status < 256) :
    ∃ b, (cmdEnd s).k = { s0.k with stkSel := b } ∧ (cmdEnd s).sense < 256 ∧ (cmdEnd s).status < 256 := by
  have c1 : sChnEnd < 256 := by decide
  have c2 : sDevEnd < 256 := by decide
  have c3 : sUnitChk < 256 := by decide
  unfold cmdEnd
  simp only
  refine ⟨b, ?_, ?_, ?_⟩
  · repeat' split
    all_goals exact hk
  · repeat' split
    all_goals exact h2
  · repeat' split
    all_goals first | exact or8 (or8 (or8 h c1) c2) c3 | exact or8 (or8 h c1) c2 | exact or8 (or8 h c2) c3 | exact or8 h c2 | exact or8 h c1 | exact h

theorem deviceCmd_spec (s : S) (h : s.sense < 256) (bo : Nat) : ∃ b, (deviceCmd s bo).k = { s.k with stkSel := b } ∧ (deviceCmd s bo).sense < 256 ∧ (deviceCmd s bo).status < 256 := by
  have z : (0 : Nat) < 256 := by decide
  have r1 : s.sense &&& eInterv < 256 := and8 h
  have r2 : s.sense &&& eInterv ||| eCmdRej < 256 := or8 r1 (by decide)
  have r3 : s.sense &&& eInterv ||| eInterv < 256 := or8 r1 (by decide)
  have r4 : s.sense ||| eCmdRej < 256 := or8 h (by decide)
  have z2 : 0 ||| (sChnEnd ||| sDevEnd) < 256 := by decide
  unfold deviceCmd
  simp only
  split
  · refine ⟨s.k.stkSel, rfl, h, ?_⟩
    show (if s.sense ≠ 0 then 0 ||| sUnitChk else 0) < 256
    split <;> decide
  · unfold cmdWrite
    simp only
    repeat' split
    · exact cmdEnd_spec (b := s.k.stkSel) rfl r2 z
    · exact cmdEnd_spec rfl r1 z
    · exact cmdEnd_spec rfl r1 z
  · unfold cmdRead
    simp only
    repeat' split
    · exact cmdEnd_spec (b := s.k.stkSel) rfl r2 z
    · exact cmdEnd_spec rfl r3 z
    · exact cmdEnd_spec rfl r1 z
  · unfold cmdFeed
    simp only
    repeat' split
    · exact cmdEnd_spec (b := s.k.stkSel) rfl r2 z
    · exact ⟨_, rfl, r1, z2⟩
    · exact cmdEnd_spec rfl r3 z
    · exact cmdEnd_spec rfl r1 z
  · split
    · exact cmdEnd_spec (b := s.k.stkSel) rfl r4 z
    · exact ⟨s.k.stkSel, rfl, h, z⟩
  · exact cmdEnd_spec (b := s.k.stkSel) rfl r4 z

theorem deviceStop_spec (s : S) (h : s.status < 256) : (deviceStop s).k = s.k ∧ (deviceStop s).sense = s.sense ∧ (deviceStop s).status < 256 := by
  have h1 : s.status ||| sChnEnd < 256 := or8 h (by decide)
  have h2 : s.status ||| sChnEnd ||| sDevEnd < 256 := or8 h1 (by decide)
  have h3 : s.status ||| sChnEnd ||| sDevEnd ||| sUnitChk < 256 := or8 h2 (by decide)
  unfold deviceStop addEv cancelEv
  simp only
  split
  · split
    · exact ⟨rfl, rfl, h1⟩
    · refine ⟨rfl, rfl, ?_⟩
      show (if s.sense ≠ 0 then _ else _) < 256
      split <;> assumption
  · split <;> exact ⟨rfl, rfl, h1⟩

theorem takeByte_spec (s : S) (bo : Nat) (h : s.status < 256) (h' : s.sense < 256) :
    (takeByte s bo).k = s.k ∧ (takeByte s bo).sense < 256 ∧ (takeByte s bo).status < 256 := by
  unfold takeByte
  split
  · split
    · exact ⟨rfl, or8 h' (by decide), or8 (or8 h (by decide)) (by decide)⟩
    · exact ⟨rfl, h', h⟩
  · exact ⟨rfl, h', h⟩

/-- A bus call keeps the invariant and moves no card. -/
theorem dev_spec {s s' : S} {t t' : Tags} {bo bi bi' : Nat} (h : Inv s) (hd : dev s t bo bi = .ok (s', t', bi')) :
    ∃ b, s'.k = { s.k with stkSel := b } ∧ s'.sense < 256 ∧ s'.status < 256 := by
  have h1 := h.status
  have h2 := h.sense
  have o1 : s.status ||| sChnEnd < 256 := or8 h1 (by decide)
  have o2 : s.status ||| (sChnEnd ||| sDevEnd) < 256 := or8 h1 (by decide)
  have o3 : s.sense ||| eBusChk < 256 := or8 h2 (by decide)
  have o4 : sChnEnd ||| sDevEnd ||| sUnitChk < 256 := by decide
  unfold dev at hd
  split at hd
  · simp only [Res.ok.injEq, Prod.mk.injEq] at hd
    rw [← hd.1]
    exact ⟨s.k.stkSel, rfl, Nat.zero_lt_succ _, Nat.zero_lt_succ _⟩
  · cases hs : s.st <;> rw [hs] at hd <;> simp only [Res.ok.injEq] at hd
    · unfold idle idleAddressed at hd
      simp only at hd
      repeat' split at hd
      all_goals
        simp only [Prod.mk.injEq] at hd
        rw [← hd.1]
        exact ⟨s.k.stkSel, rfl, by first | exact h2 | exact o3, h1⟩
    · unfold busyState at hd
      simp only at hd
      repeat' split at hd
      all_goals
        simp only [Prod.mk.injEq] at hd
        rw [← hd.1]
        exact ⟨s.k.stkSel, rfl, h2, h1⟩
    · unfold initSel at hd
      simp only at hd
      repeat' split at hd
      all_goals
        simp only [Prod.mk.injEq] at hd
        rw [← hd.1]
        exact ⟨s.k.stkSel, rfl, h2, h1⟩
    · unfold command commandOut at hd
      simp only at hd
      split at hd
      · split at hd
        · simp only [Prod.mk.injEq] at hd
          rw [← hd.1]
          exact ⟨s.k.stkSel, rfl, o3, o4⟩
        · split at hd
          · split at hd
            · simp only [Prod.mk.injEq] at hd
              rw [← hd.1]
              exact ⟨s.k.stkSel, rfl, h2, h1⟩
            · simp only [Prod.mk.injEq] at hd
              rw [← hd.1]
              refine ⟨s.k.stkSel, rfl, h2, ?_⟩
              show (if s.status = 0 then sBusy else s.status) < 256
              split
              · decide
              · exact h1
          · simp only [Prod.mk.injEq] at hd
            rw [← hd.1]
            split
            · exact deviceCmd_spec { s with request := false, st := .status } h2 bo
            · exact ⟨s.k.stkSel, rfl, h2, h1⟩
      · split at hd
        · simp only [Prod.mk.injEq] at hd
          rw [← hd.1]
          split
          · exact ⟨s.k.stkSel, rfl, h2, o1⟩
          · exact ⟨s.k.stkSel, rfl, h2, h1⟩
        · simp only [Prod.mk.injEq] at hd
          rw [← hd.1]
          exact ⟨s.k.stkSel, rfl, h2, h1⟩
    · unfold status at hd
      rw [withPar_ok _ h1] at hd
      simp only [Res.bind, Res.ok.injEq, Prod.mk.injEq] at hd
      rw [← hd.1]
      exact ⟨s.k.stkSel, rfl, h2, h1⟩
    · unfold statusAccept statusAccepted at hd
      rw [withPar_ok _ h1] at hd
      simp only [Res.bind] at hd
      repeat' split at hd
      all_goals
        simp only [Res.ok.injEq, Prod.mk.injEq] at hd
        rw [← hd.1]
        exact ⟨s.k.stkSel, rfl, h2, by first | exact h1 | exact Nat.zero_lt_succ _⟩
    · unfold statusWait at hd
      simp only at hd
      repeat' split at hd
      all_goals
        simp only [Prod.mk.injEq] at hd
        rw [← hd.1]
        exact ⟨s.k.stkSel, rfl, h2, h1⟩
    · unfold endStatus at hd
      rw [withPar_ok _ h1] at hd
      simp only [Res.bind] at hd
      repeat' split at hd
      all_goals
        simp only [Res.ok.injEq, Prod.mk.injEq] at hd
        rw [← hd.1]
        exact ⟨s.k.stkSel, rfl, h2, h1⟩
    · unfold endAccept endAccepted at hd
      rw [withPar_ok _ h1] at hd
      simp only [Res.bind] at hd
      repeat' split at hd
      all_goals
        simp only [Res.ok.injEq, Prod.mk.injEq] at hd
        rw [← hd.1]
        exact ⟨s.k.stkSel, rfl, h2, by first | exact h1 | exact Nat.zero_lt_succ _⟩
    · unfold waitDevend at hd
      simp only at hd
      repeat' split at hd
      all_goals
        simp only [Prod.mk.injEq] at hd
        rw [← hd.1]
        exact ⟨s.k.stkSel, rfl, h2, h1⟩
    · unfold opr oprIdle at hd
      simp only at hd
      repeat' split at hd
      all_goals
        simp only [Prod.mk.injEq] at hd
        rw [← hd.1]
        exact ⟨s.k.stkSel, rfl, h2, by first | exact h1 | exact o1 | exact o2⟩
    · unfold data1 at hd
      simp only at hd
      split at hd
      · simp only [Res.ok.injEq, Prod.mk.injEq] at hd
        rw [← hd.1]
        exact ⟨s.k.stkSel, rfl, h2, h1⟩
      · split at hd
        · simp only [Res.ok.injEq, Prod.mk.injEq] at hd
          rw [← hd.1]
          exact ⟨s.k.stkSel, rfl, h2, h1⟩
        · cases hw : withPar s.data with
          | ok b =>
            rw [hw] at hd
            simp only [Res.bind, Res.ok.injEq, Prod.mk.injEq] at hd
            rw [← hd.1]
            exact ⟨s.k.stkSel, rfl, h2, h1⟩
          | oob => rw [hw] at hd; cases hd
          | fuel => rw [hw] at hd; cases hd
    · unfold data2 at hd
      cases hw : withPar s.data with
      | ok b =>
        rw [hw] at hd
        simp only [Res.bind] at hd
        obtain ⟨a1, a2, a3⟩ := takeByte_spec { s with dataRdy := false } bo h1 h2
        split at hd
        · simp only [Res.ok.injEq, Prod.mk.injEq] at hd
          rw [← hd.1]
          split
          · obtain ⟨b1, b2, b3⟩ := deviceStop_spec { takeByte { s with dataRdy := false } bo with st := .opr } a3
            exact ⟨s.k.stkSel, b1.trans a1, by rw [show _ = _ from b2]; exact a2, b3⟩
          · exact ⟨s.k.stkSel, a1, a2, a3⟩
        · simp only [Res.ok.injEq, Prod.mk.injEq] at hd
          rw [← hd.1]
          exact ⟨s.k.stkSel, rfl, h2, h1⟩
      | oob => rw [hw] at hd; cases hd
      | fuel => rw [hw] at hd; cases hd

/-- **C44**, the table: the only access outside the parity table is at a data transfer while the data register holds a
value of nine bits. -/
theorem dev_oob {s : S} {t : Tags} {bo bi : Nat} (h : Inv s) (hd : dev s t bo bi = .oob) :
    (s.st = .data1 ∨ s.st = .data2) ∧ 256 ≤ s.data := by
  have h1 := h.status
  have key : ∀ f : Nat → Res Io, (withPar s.data).bind f = .oob → (∀ b, f b ≠ .oob) → 256 ≤ s.data := by
    intro f hf hg
    by_cases hv : s.data < 256
    · rw [withPar_ok _ hv] at hf
      exact absurd hf (hg _)
    · omega
  unfold dev at hd
  split at hd
  · cases hd
  · cases hs : s.st <;> rw [hs] at hd <;> simp only [reduceCtorEq] at hd
    · unfold status at hd
      rw [withPar_ok _ h1] at hd
      cases hd
    · unfold statusAccept at hd
      rw [withPar_ok _ h1] at hd
      simp only [Res.bind] at hd
      repeat' split at hd
      all_goals cases hd
    · unfold endStatus at hd
      rw [withPar_ok _ h1] at hd
      simp only [Res.bind] at hd
      repeat' split at hd
      all_goals cases hd
    · unfold endAccept at hd
      rw [withPar_ok _ h1] at hd
      simp only [Res.bind] at hd
      repeat' split at hd
      all_goals cases hd
    · unfold data1 at hd
      simp only at hd
      split at hd
      · cases hd
      · split at hd
        · cases hd
        · exact ⟨Or.inl rfl, key _ hd (fun b hb => by cases hb)⟩
    · unfold data2 at hd
      refine ⟨Or.inr rfl, key _ hd (fun b hb => ?_)⟩
      simp only at hb
      split at hb <;> cases hb

theorem dev_fuel {s : S} {t : Tags} {bo bi : Nat} : dev s t bo bi ≠ .fuel := by
  have key : ∀ v, ∀ f : Nat → Res Io, (withPar v).bind f = .fuel → ∃ b, f b = .fuel := by
    intro v f hf
    by_cases hv : v < 256
    · rw [withPar_ok _ hv] at hf; exact ⟨_, hf⟩
    · rw [withPar_oob _ (by omega)] at hf; cases hf
  intro hd
  unfold dev at hd
  split at hd
  · cases hd
  · cases hs : s.st <;> rw [hs] at hd <;> simp only [reduceCtorEq] at hd
    · obtain ⟨b, hb⟩ := key _ _ hd
      cases hb
    · obtain ⟨b, hb⟩ := key _ _ hd
      simp only at hb
      repeat' split at hb
      all_goals cases hb
    · unfold endStatus at hd
      simp only at hd
      split at hd
      · cases hd
      · obtain ⟨b, hb⟩ := key _ _ hd
        cases hb
    · obtain ⟨b, hb⟩ := key _ _ hd
      simp only at hb
      repeat' split at hb
      all_goals cases hb
    · unfold data1 at hd
      simp only at hd
      split at hd
      · cases hd
      · split at hd
        · cases hd
        · obtain ⟨b, hb⟩ := key _ _ hd
          cases hb
    · obtain ⟨b, hb⟩ := key _ _ hd
      simp only at hb
      split at hb <;> cases hb

/-! ## Callbacks and keys -/

/-- How one event may change where the cards are. -/
inductive Spec.Moves (s : S) : Op → Spec.Path → Prop where
  /-- nothing moves -/
  | stay (o : Op) : Moves s o (path s.k)
  /-- a feed, by its event or by the operator -/
  | feed (o : Op) (h : o = .fire .feed ∨ o = .startKey ∨ o = .nproKey) : Moves s o (Spec.feed (path s.k) s.k.stkSel s.k.stop)
  /-- one column of the card at the punch gets the holes of the data byte -/
  | punch (m m' : Img) (h : (path s.k).punch = some m) (hp : Spec.punchedAt m m' s.k.pchCol s.data) : Moves s (.fire .write) { path s.k with punch := some m' }

theorem set_card {m : Img} (h : Card.Card m) (i v : Nat) (hv : v < 4096) : Card.Card (m.set i v) := by
  refine ⟨by rw [List.length_set]; exact h.1, fun x hx => ?_⟩
  rcases List.mem_or_eq_of_mem_set hx with hx | hx
  · exact h.2 x hx
  · rw [hx]; exact hv

theorem readCb_spec {s : S} (h : Inv s) : ∃ s', readCb s = .ok s' ∧ Inv s' ∧ path s'.k = path s.k := by
  have h1 := h.status
  have h2 := h.sense
  unfold readCb
  split
  · exact ⟨_, rfl, ⟨or8 h1 (by decide), h2, h.k⟩, rfl⟩
  · split
    · split
      · rename_i hc
        have hl : s.k.rdrCol < s.k.rdrCard.length := by rw [h.k.rdr.1]; exact hc
        have hg : Card.getCol s.k.rdrCard s.k.rdrCol = .ok s.k.rdrCard[s.k.rdrCol] := by
          simp [Card.getCol, Card.look, hl]
        rw [hg]
        simp only [Res.bind]
        have hx : s.k.rdrCard[s.k.rdrCol] < 4096 := h.k.rdr.2 _ (List.getElem_mem hl)
        cases he : Card.holToEbcdic s.k.rdrCard[s.k.rdrCol] with
        | none => exact absurd ((Card.C14_table_bound _).mp he) (by omega)
        | some d =>
          simp only [Card.look]
          refine ⟨_, rfl, ?_⟩
          split
          · exact ⟨⟨h1, or8 h2 (by decide), ⟨h.k.hop, h.k.hopC, h.k.stk0, h.k.stk0C, h.k.stk1, h.k.stk1C, h.k.rdr, h.k.pch⟩⟩, rfl⟩
          · exact ⟨⟨h1, h2, ⟨h.k.hop, h.k.hopC, h.k.stk0, h.k.stk0C, h.k.stk1, h.k.stk1C, h.k.rdr, h.k.pch⟩⟩, rfl⟩
      · exact ⟨_, rfl, ⟨or8 h1 (by decide), h2, h.k⟩, rfl⟩
    · exact ⟨_, rfl, ⟨or8 h1 (by decide), or8 h2 (by decide), h.k⟩, rfl⟩

theorem writeCb_spec {s : S} (h : Inv s) : ∃ s', writeCb s = .ok s' ∧ Inv s' ∧ (path s'.k = path s.k ∨
    ∃ m m', (path s.k).punch = some m ∧ Spec.punchedAt m m' s.k.pchCol s.data ∧ path s'.k = { path s.k with punch := some m' }) := by
  have h1 := h.status
  have h2 := h.sense
  unfold writeCb
  split
  · refine ⟨_, rfl, ?_, Or.inl ?_⟩
    · unfold writeOverrun
      simp only
      have o1 : s.status ||| (sChnEnd ||| sUnitChk) < 256 := or8 h1 (by decide)
      split
      · exact ⟨o1, or8 h2 (by decide), h.k⟩
      · exact ⟨or8 o1 (by decide), or8 h2 (by decide), h.k⟩
    · unfold writeOverrun
      simp only
      split <;> rfl
  · unfold punchCol
    by_cases hc : s.k.pchCol < 80
    · rw [if_pos hc]
      have hl : s.k.pchCol < s.k.pchCard.length := by rw [h.k.pch.1]; exact hc
      have hg : Card.getCol s.k.pchCard s.k.pchCol = .ok s.k.pchCard[s.k.pchCol] := by
        simp [Card.getCol, Card.look, hl]
      have hd : s.data % 256 < ebcdicToHolTab.length := by rw [Card.ebcdicToHolTab_len]; exact Nat.mod_lt _ (by decide)
      have he : Card.ebcdicToHol (s.data % 256) = some ebcdicToHolTab[s.data % 256] := by simp [Card.ebcdicToHol, hd]
      have hx : s.k.pchCard[s.k.pchCol] < 4096 := h.k.pch.2 _ (List.getElem_mem hl)
      have hy : ebcdicToHolTab[s.data % 256] < 4096 := Card.ebcdicToHolTab_lt _ (List.getElem_mem hd)
      have hor : s.k.pchCard[s.k.pchCol] ||| ebcdicToHolTab[s.data % 256] < 4096 := Nat.or_lt_two_pow (n := 12) hx hy
      rw [hg]
      simp only [Res.bind, he, Card.look]
      have hset : Card.setCol s.k.pchCard s.k.pchCol (s.k.pchCard[s.k.pchCol] ||| ebcdicToHolTab[s.data % 256]) = .ok (s.k.pchCard.set s.k.pchCol (s.k.pchCard[s.k.pchCol] ||| ebcdicToHolTab[s.data % 256])) := by
        unfold Card.setCol; rw [if_pos hl]
      rw [hset]
      refine ⟨_, rfl, ⟨h1, h2, ⟨h.k.hop, h.k.hopC, h.k.stk0, h.k.stk0C, h.k.stk1, h.k.stk1C, h.k.rdr, set_card h.k.pch _ _ hor⟩⟩, ?_⟩
      cases hf : s.k.pchFull
      · left
        simp [path, addEv, hf]
        rfl
      · right
        refine ⟨s.k.pchCard, _, by simp [path, hf], ⟨hc, _, s.k.pchCard[s.k.pchCol], he, by simp [hl], rfl⟩, ?_⟩
        simp [path, addEv, hf]
        rfl
    · rw [if_neg hc]
      exact ⟨_, rfl, ⟨h1, h2, h.k⟩, Or.inl rfl⟩

theorem feedCb_spec {s : S} (h : Inv s) : ∃ s', feedCb s = .ok s' ∧ Inv s' ∧ (path s'.k = path s.k ∨ path s'.k = Spec.feed (path s.k) s.k.stkSel s.k.stop) := by
  have h1 := h.status
  have h2 := h.sense
  have o1 : s.status ||| sDevEnd < 256 := or8 h1 (by decide)
  have o2 : s.status ||| sDevEnd ||| sUnitExp < 256 := or8 o1 (by decide)
  unfold feedCb
  simp only
  split
  · obtain ⟨s', e1, e2, e3, e4⟩ := feed_spec (s := { s with status := s.status ||| sDevEnd ||| sUnitExp, busy := false, cmdDone := true, feedDone := true, request := true, k := { s.k with eof := false } })
      ⟨o2, h2, ⟨h.k.hop, h.k.hopC, h.k.stk0, h.k.stk0C, h.k.stk1, h.k.stk1C, h.k.rdr, h.k.pch⟩⟩
    refine ⟨s', e1, e2, ?_⟩
    rw [e4]
    split
    · exact Or.inl rfl
    · exact Or.inr rfl
  · obtain ⟨s', e1, e2, e3, e4⟩ := feed_spec (s := { s with status := s.status ||| sDevEnd, busy := false, cmdDone := true, feedDone := true, request := true })
      ⟨o1, h2, h.k⟩
    rw [e1]
    simp only [Res.bind]
    have hp : path s'.k = path s.k ∨ path s'.k = Spec.feed (path s.k) s.k.stkSel s.k.stop := by
      rw [e4]
      split
      · exact Or.inl rfl
      · exact Or.inr rfl
    refine ⟨_, rfl, ?_, ?_⟩
    · split
      · exact ⟨or8 e2.status (by decide), e2.sense, e2.k⟩
      · exact e2
    · split <;> exact hp

/-- Every event keeps the invariant and moves cards only as the specification says; the only access outside a table is
the one of `dev_oob`. -/
theorem step_spec {s : S} (h : Inv s) (o : Op) :
    (∃ s', step s o = .ok s' ∧ Inv s' ∧ Spec.Moves s o (path s'.k)) ∨
    (step s o = .oob ∧ (∃ t bo bi, o = .bus t bo bi) ∧ (s.st = .data1 ∨ s.st = .data2) ∧ 256 ≤ s.data) := by
  have hc : ∀ s : S, Inv s → Inv (counts s) ∧ path (counts s).k = path s.k := fun s h =>
    ⟨⟨h.status, h.sense, ⟨h.k.hop, h.k.hopC, h.k.stk0, h.k.stk0C, h.k.stk1, h.k.stk1C, h.k.rdr, h.k.pch⟩⟩, rfl⟩
  cases o with
  | bus t bo bi =>
    cases hd : dev s t bo bi with
    | ok r =>
      obtain ⟨s', t', bi'⟩ := r
      obtain ⟨b, k1, k2, k3⟩ := dev_spec h hd
      left
      refine ⟨s', by simp only [step, hd]; rfl, ⟨k3, k2, by rw [k1]; exact h.k.stkSel b⟩, ?_⟩
      rw [k1, path_stkSel]
      exact .stay _
    | oob =>
      right
      exact ⟨by simp only [step, hd]; rfl, ⟨t, bo, bi, rfl⟩, dev_oob h hd⟩
    | fuel => exact absurd hd dev_fuel
  | fire c =>
    left
    unfold step
    simp only
    split
    · cases c with
      | read =>
        obtain ⟨s', e1, e2, e3⟩ := readCb_spec (s := { s with evs := s.evs.erase .read }) ⟨h.status, h.sense, h.k⟩
        exact ⟨s', e1, e2, by rw [e3]; exact .stay _⟩
      | write =>
        obtain ⟨s', e1, e2, e3⟩ := writeCb_spec (s := { s with evs := s.evs.erase .write }) ⟨h.status, h.sense, h.k⟩
        refine ⟨s', e1, e2, ?_⟩
        rcases e3 with e3 | ⟨m, m', a1, a2, a3⟩
        · rw [e3]; exact .stay _
        · rw [a3]; exact .punch m m' a1 a2
      | feed =>
        obtain ⟨s', e1, e2, e3⟩ := feedCb_spec (s := { s with evs := s.evs.erase .feed }) ⟨h.status, h.sense, h.k⟩
        refine ⟨s', e1, e2, ?_⟩
        rcases e3 with e3 | e3
        · rw [e3]; exact .stay _
        · rw [e3]; exact .feed _ (Or.inl rfl)
    · exact ⟨s, rfl, h, .stay _⟩
  | eofKey =>
    left
    exact ⟨_, rfl, (hc { s with k := { s.k with eof := !s.k.eof } } ⟨h.status, h.sense, ⟨h.k.hop, h.k.hopC, h.k.stk0, h.k.stk0C, h.k.stk1, h.k.stk1C, h.k.rdr, h.k.pch⟩⟩).1, .stay _⟩
  | stopKey =>
    left
    exact ⟨_, rfl, (hc { s with k := { s.k with stop := true } } ⟨h.status, h.sense, ⟨h.k.hop, h.k.hopC, h.k.stk0, h.k.stk0C, h.k.stk1, h.k.stk1C, h.k.rdr, h.k.pch⟩⟩).1, .stay _⟩
  | nproKey =>
    left
    obtain ⟨s', e1, e2, e3, e4⟩ := feed_spec h
    unfold step keyNpro
    simp only
    rw [e1]
    refine ⟨_, rfl, (hc { s' with k := { s'.k with eof := false } } ⟨e2.status, e2.sense, ⟨e2.k.hop, e2.k.hopC, e2.k.stk0, e2.k.stk0C, e2.k.stk1, e2.k.stk1C, e2.k.rdr, e2.k.pch⟩⟩).1, ?_⟩
    show Spec.Moves s .nproKey (path s'.k)
    rw [e4]
    split
    · exact .stay _
    · exact .feed _ (Or.inr (Or.inr rfl))
  | startKey =>
    left
    unfold step keyStart
    simp only
    split
    · split
      · obtain ⟨s', e1, e2, e3, e4⟩ := feed_spec h
        rw [e1]
        simp only [Res.bind]
        have hm : Spec.Moves s .startKey (path s'.k) := by
          rw [e4]
          split
          · exact .stay _
          · exact .feed _ (Or.inr (Or.inl rfl))
        refine ⟨_, rfl, ?_, ?_⟩
        · split
          · exact (hc { s' with status := sDevEnd, dataEnd := true, feedDone := true } ⟨by show sDevEnd < 256; decide, e2.sense, e2.k⟩).1
          · exact (hc s' e2).1
        · split <;> exact hm
      · simp only [Res.bind]
        refine ⟨_, rfl, ?_, ?_⟩
        · split
          · exact (hc { s with status := sDevEnd, dataEnd := true, feedDone := true } ⟨by show sDevEnd < 256; decide, h.sense, h.k⟩).1
          · exact (hc s h).1
        · split <;> exact .stay _
    · exact ⟨_, rfl, (hc s h).1, .stay _⟩

/-! ## Histories -/

theorem covers_refl (m : Img) : Spec.covers m m := ⟨rfl, fun i x y h1 h2 => by rw [h1] at h2; cases h2; simp⟩

theorem covers_trans {a b c : Img} (h1 : Spec.covers a b) (h2 : Spec.covers b c) : Spec.covers a c := by
  refine ⟨h1.1.trans h2.1, fun i x z hx hz => ?_⟩
  have hi : i < b.length := by
    rw [← h1.1]
    exact (List.getElem?_eq_some_iff.mp hx).1
  have e1 := h1.2 i x b[i] hx (by simp [hi])
  have e2 := h2.2 i b[i] z (by simp [hi]) hz
  rw [← e2, ← Nat.or_assoc, e1]

theorem punched_covers {a b : Img} {c v : Nat} (h : Spec.punchedAt a b c v) : Spec.covers a b := by
  obtain ⟨-, hh, x, -, hx, rfl⟩ := h
  refine ⟨by simp, fun i y z hy hz => ?_⟩
  rw [List.getElem?_set] at hz
  split at hz
  · rename_i hi
    subst hi
    split at hz
    · cases hz
      rw [hx] at hy
      cases hy
      rw [← Nat.or_assoc, Nat.or_self]
    · cases hz
  · rw [hy] at hz; cases hz; simp

/-- Card by card, the second row is the first with, possibly, more holes. -/
inductive Spec.overpunched : List Img → List Img → Prop where
  | nil : overpunched [] []
  | cons {a b : Img} {l m : List Img} (h : Spec.covers a b) (t : overpunched l m) : overpunched (a :: l) (b :: m)

theorem over_refl : ∀ l : List Img, Spec.overpunched l l
  | [] => .nil
  | m :: l => .cons (covers_refl m) (over_refl l)

theorem over_trans {a b c : List Img} (h1 : Spec.overpunched a b) (h2 : Spec.overpunched b c) : Spec.overpunched a c := by
  induction h1 generalizing c with
  | nil => cases h2; exact .nil
  | cons h _ ih => cases h2 with | cons h2 h3 => exact .cons (covers_trans h h2) (ih h3)

theorem over_append {a b c d : List Img} (h1 : Spec.overpunched a b) (h2 : Spec.overpunched c d) : Spec.overpunched (a ++ c) (b ++ d) := by
  induction h1 with
  | nil => exact h2
  | cons h _ ih => exact .cons h ih

/-- The cards of the log that went to one of the stackers. -/
def Spec.sent (log : List (Bool × Img)) (two : Bool) : List Img := (log.filter (fun e => e.1 = two)).map (·.2)

theorem moves_log {s : S} {o : Op} {p : Spec.Path} (h : Spec.Moves s o p) : ∃ log : List (Bool × Img),
    p.stk1 = (path s.k).stk1 ++ Spec.sent log false ∧ p.stk2 = (path s.k).stk2 ++ Spec.sent log true ∧
    Spec.overpunched (path s.k).line (log.map (·.2) ++ p.line) := by
  cases h with
  | stay => exact ⟨[], by simp [Spec.sent], by simp [Spec.sent], over_refl _⟩
  | feed =>
    refine ⟨(path s.k).punch.toList.map (fun m => (s.k.stkSel, m)), ?_, ?_, ?_⟩
    · cases hs : s.k.stkSel <;> cases hp : (path s.k).punch <;> simp [Spec.feed, Spec.sent, hp]
    · cases hs : s.k.stkSel <;> cases hp : (path s.k).punch <;> simp [Spec.feed, Spec.sent, hp]
    · have : ((path s.k).punch.toList.map (fun m => (s.k.stkSel, m))).map (·.2) ++ (Spec.feed (path s.k) s.k.stkSel s.k.stop).line = (path s.k).line := by
        unfold Spec.feed Spec.Path.line
        cases h1 : (path s.k).punch <;> cases h2 : (path s.k).reader <;> cases h3 : s.k.stop <;> cases h4 : (path s.k).hopper <;> simp [h1, h2, h3, h4]
      rw [this]
      exact over_refl _
  | punch m m' h1 h2 =>
    refine ⟨[], by simp [Spec.sent], by simp [Spec.sent], ?_⟩
    unfold Spec.Path.line
    rw [h1]
    exact .cons (punched_covers h2) (over_refl _)

/-- **C42**: whatever happens to a 1442 (calls from the channel with any tags and data, its timer events, the operator's
keys), no card is lost, doubled or overtaken: the cards that were between hopper and stacker at the beginning are, in
order, those that went to the stackers and those still on their way, except that punching may have added holes. -/
theorem C42_cards_conserved {s s' : S} (ops : List Op) (h : Inv s) (hr : run s ops = .ok s') :
    ∃ log : List (Bool × Img), (path s'.k).stk1 = (path s.k).stk1 ++ Spec.sent log false ∧ (path s'.k).stk2 = (path s.k).stk2 ++ Spec.sent log true ∧
      Spec.overpunched (path s.k).line (log.map (·.2) ++ (path s'.k).line) := by
  induction ops generalizing s with
  | nil =>
    cases hr
    exact ⟨[], by simp [Spec.sent], by simp [Spec.sent], over_refl _⟩
  | cons o os ih =>
    unfold run at hr
    rcases step_spec h o with ⟨s1, e1, e2, e3⟩ | ⟨e1, -⟩
    · rw [e1] at hr
      obtain ⟨l2, a1, a2, a3⟩ := ih e2 hr
      obtain ⟨l1, b1, b2, b3⟩ := moves_log e3
      refine ⟨l1 ++ l2, ?_, ?_, ?_⟩
      · rw [a1, b1]; simp [Spec.sent, List.append_assoc]
      · rw [a2, b2]; simp [Spec.sent, List.append_assoc]
      · refine over_trans b3 ?_
        rw [List.map_append, List.append_assoc]
        exact over_append (over_refl _) a3
    · rw [e1] at hr; cases hr

/-- **C44**, the table, over histories: a history of a 1442 whose decks are proper cards goes outside a table or array
only at a data transfer while the data register holds a byte with its parity bit. -/
theorem C44_only_data_register_partial {s : S} (ops : List Op) (h : Inv s) :
    (∃ s', run s ops = .ok s' ∧ Inv s') ∨
    (run s ops = .oob ∧ ∃ pre o post s1, ops = pre ++ o :: post ∧ run s pre = .ok s1 ∧ (∃ t bo bi, o = .bus t bo bi) ∧ (s1.st = .data1 ∨ s1.st = .data2) ∧ 256 ≤ s1.data) := by
  induction ops generalizing s with
  | nil => exact Or.inl ⟨s, rfl, h⟩
  | cons o os ih =>
    rcases step_spec h o with ⟨s1, e1, e2, e3⟩ | ⟨e1, e2, e3⟩
    · rcases ih e2 with ⟨s', f1, f2⟩ | ⟨f1, pre, o', post, s2, g1, g2, g3⟩
      · exact Or.inl ⟨s', by unfold run; rw [e1]; exact f1, f2⟩
      · refine Or.inr ⟨by unfold run; rw [e1]; exact f1, o :: pre, o', post, s2, by rw [g1]; rfl, ?_, g3⟩
        unfold run; rw [e1]; exact g2
    · exact Or.inr ⟨by unfold run; rw [e1]; rfl, [], o, os, s, rfl, rfl, e2, e3⟩

end Verif.Dev1442
