import Verif.Sel50.Props

/-! # The end of the count, and the handshake with the device -/

namespace Verif.Sel50

/-! ### What the middle part of a cycle does to the position and the tags -/

theorem endb_more (i : Nat) (n : In) (x : X) :
    (x.c.tags.srv = true → (endb i n x).c.tags.srv = true) ∧ (endb i n x).c.c1 = x.c.c1 := by
  unfold endb
  dsimp only
  have k : x.c.tags.srv = true → (if n.t.staIn = true then { x.c.tags with
      srv := true, sup := x.c.tags.sup || x.c.flags &&& 0x4000 != 0 } else x.c.tags).srv = true := by
    intro h; split
    · rfl
    · exact h
  repeat' split
  all_goals first
    | exact ⟨k, rfl⟩
    | exact ⟨fun h => h, rfl⟩
    | exact ⟨fun _ => rfl, rfl⟩

theorem posEnd_more (i : Nat) (n : In) (x : X) :
    (x.c.tags.srv = true → (posEnd i n x).c.tags.srv = true) ∧
    ((posEnd i n x).c.c1 = true → x.c.c1 = true) := by
  unfold posEnd
  split
  · have key : ∀ y : X, ((x.c.tags.srv = true → y.c.tags.srv = true) ∧ y.c.c1 = x.c.c1) →
        (x.c.tags.srv = true → (endLast y).c.tags.srv = true) ∧
        ((endLast y).c.c1 = true → x.c.c1 = true) := by
      intro y h
      unfold endLast
      split
      · exact ⟨h.1, fun e => nomatch e⟩
      · exact ⟨h.1, fun e => h.2 ▸ e⟩
    apply key
    repeat' split
    all_goals first
      | exact ⟨fun h => h, rfl⟩
      | exact endb_more i n { x with g := { x.g with dtc1 := false } }
  · exact ⟨fun h => h, fun h => h⟩

theorem mid_frame {i : Nat} {n : In} {c : Chan} {gw : Glob} (hr : Reading c) :
    ∃ y : X, y = (if c.chpos ≠ 0 then positions i n { c := c, g := gw }
       else if c.polling then poll i n { c := c, g := gw } else auto i n { c := c, g := gw }) ∧
      y.c.gp = c.gp ∧ y.c.ifStop = c.ifStop ∧ y.c.op = c.op ∧ y.c.cd = c.cd ∧
      (n.t.staIn = false → y.c.tags.srv = c.tags.srv) ∧
      (c.tags.srv = true → y.c.tags.srv = true) ∧
      (y.c.c1 = true → c.c1 = true) := by
  refine ⟨_, rfl, ?_⟩
  rcases hr.2.2.2 with h | h | h | h
  · rw [if_neg (by rw [h]; simp), hr.2.2.1, if_neg (by decide)]
    unfold auto
    dsimp only
    have f1 : ∀ c : Chan, (cToB n c).gp = c.gp ∧ (cToB n c).ifStop = c.ifStop ∧
        (cToB n c).op = c.op ∧ (cToB n c).cd = c.cd ∧ (cToB n c).tags.srv = c.tags.srv ∧
        (cToB n c).c1 = c.c1 := fun c => by unfold cToB; split <;> exact ⟨rfl, rfl, rfl, rfl, rfl, rfl⟩
    have f2 : ∀ x : X, (lsAsk i x).c.gp = x.c.gp ∧ (lsAsk i x).c.ifStop = x.c.ifStop ∧
        (lsAsk i x).c.op = x.c.op ∧ (lsAsk i x).c.cd = x.c.cd ∧
        (lsAsk i x).c.tags.srv = x.c.tags.srv ∧ (lsAsk i x).c.c1 = x.c.c1 := fun x => by
      unfold lsAsk; dsimp only; repeat' split
      all_goals exact ⟨rfl, rfl, rfl, rfl, rfl, rfl⟩
    have f3 : ∀ c : Chan, (gone n c).gp = c.gp ∧ (gone n c).ifStop = c.ifStop ∧
        (gone n c).op = c.op ∧ (gone n c).cd = c.cd ∧ (gone n c).tags.srv = c.tags.srv ∧
        (gone n c).c1 = c.c1 := fun c => by unfold gone; split <;> exact ⟨rfl, rfl, rfl, rfl, rfl, rfl⟩
    have f4 : ∀ c : Chan, (ask n c).gp = c.gp ∧ (ask n c).ifStop = c.ifStop ∧
        (ask n c).op = c.op ∧ (ask n c).cd = c.cd ∧ (ask n c).tags.srv = c.tags.srv ∧
        (ask n c).c1 = c.c1 := fun c => by
      unfold ask; dsimp only; repeat' split
      all_goals exact ⟨rfl, rfl, rfl, rfl, rfl, rfl⟩
    have f5 : ∀ c : Chan, (ending n c).gp = c.gp ∧ (ending n c).ifStop = c.ifStop ∧
        (ending n c).op = c.op ∧ (ending n c).cd = c.cd ∧ (ending n c).tags.srv = c.tags.srv ∧
        (ending n c).c1 = c.c1 := fun c => by
      unfold ending; dsimp only; repeat' split
      all_goals exact ⟨rfl, rfl, rfl, rfl, rfl, rfl⟩
    have f6 : bToC n (cToB n c) = cToB n c := bToC_id ((f1 c).2.2.1.symm ▸ hr.1)
    rw [f6]
    have a := f1 c
    have b := f2 { c := cToB n c, g := gw }
    have d := f3 (lsAsk i { c := cToB n c, g := gw }).c
    have e := f4 (gone n (lsAsk i { c := cToB n c, g := gw }).c)
    have f := f5 (ask n (gone n (lsAsk i { c := cToB n c, g := gw }).c))
    have hs := f.2.2.2.2.1.trans (e.2.2.2.2.1.trans (d.2.2.2.2.1.trans (b.2.2.2.2.1.trans a.2.2.2.2.1)))
    have hc := f.2.2.2.2.2.trans (e.2.2.2.2.2.trans (d.2.2.2.2.2.trans (b.2.2.2.2.2.trans a.2.2.2.2.2)))
    exact ⟨f.1.trans (e.1.trans (d.1.trans (b.1.trans a.1))),
      f.2.1.trans (e.2.1.trans (d.2.1.trans (b.2.1.trans a.2.1))),
      f.2.2.1.trans (e.2.2.1.trans (d.2.2.1.trans (b.2.2.1.trans a.2.2.1))),
      f.2.2.2.1.trans (e.2.2.2.1.trans (d.2.2.2.1.trans (b.2.2.2.1.trans a.2.2.2.1))),
      fun _ => hs, fun h => hs.trans h, fun h => hc ▸ h⟩
  · rw [if_pos (by rw [h]; decide), at200 i n { c := c, g := gw } h]
    dsimp only
    split <;> exact ⟨rfl, rfl, rfl, rfl, fun _ => rfl, fun h => h, fun h => h⟩
  · rw [if_pos (by rw [h]; decide), at10 i n { c := c, g := gw } h]
    unfold posRst
    split
    · exact ⟨rfl, rfl, rfl, rfl, fun _ => rfl, fun h => h, fun h => nomatch h⟩
    · exact ⟨rfl, rfl, rfl, rfl, fun _ => rfl, fun h => h, fun h => h⟩
  · rw [if_pos (by rw [h]; decide), at04 i n { c := c, g := gw } h]
    obtain ⟨a, _, _, d⟩ := posEnd_same i n { c := c, g := gw }
    refine ⟨a.gp, a.ifStop, a.op, a.cd, d, ?_, ?_⟩
    · exact (posEnd_more i n { c := c, g := gw }).1
    · exact (posEnd_more i n { c := c, g := gw }).2

theorem began_frame {i : Nat} {ga : Glob} {c : Chan} : (began i ga c).gp = c.gp ∧
    (began i ga c).ifStop = c.ifStop ∧ (began i ga c).op = c.op ∧ (began i ga c).cd = c.cd ∧
    (began i ga c).tags = c.tags ∧ (began i ga c).c1 = c.c1 := by
  unfold began accept
  dsimp only
  repeat' split
  all_goals exact ⟨rfl, rfl, rfl, rfl, rfl, rfl⟩

/-- The channel just before it answers a request for service. -/
theorem before_serve {i : Nat} {n : In} {ga gw : Glob} {c : Chan} (hr : Reading (began i ga c)) :
    ∃ z : Chan, cycled i n ga gw c = serve n z ∧ z.gp = c.gp ∧ z.ifStop = c.ifStop ∧ z.op = c.op ∧
      z.cd = c.cd ∧
      ((n.t.srv && !n.t.srvIn && !n.t.staIn) = true → z.tags.srv = false) ∧
      ((n.t.srv && !n.t.srvIn && !n.t.staIn) = false →
        (n.t.staIn = false → z.tags.srv = c.tags.srv) ∧ (c.tags.srv = true → z.tags.srv = true)) ∧
      (z.c1 = true → c.c1 = true) := by
  obtain ⟨y, hy, g1, g2, g3, g4, g5, g6, g7⟩ := mid_frame (i := i) (n := n) (gw := gw) hr
  have hb := began_frame (i := i) (ga := ga) (c := c)
  have hw : cycled i n ga gw c = serve n (dropCmd n (dropSrv i n y).c) := by rw [hy]; rfl
  refine ⟨dropCmd n (dropSrv i n y).c, hw, ?_⟩
  have d1 : ∃ t, (dropSrv i n y).c = { y.c with tags := t } ∧
      t.srv = if n.t.srv && !n.t.srvIn && !n.t.staIn then false else y.c.tags.srv := by
    unfold dropSrv
    split
    · exact ⟨_, rfl, rfl⟩
    · exact ⟨y.c.tags, rfl, rfl⟩
  obtain ⟨t, ht, ht2⟩ := d1
  have d2 : ∃ t', dropCmd n (dropSrv i n y).c = { y.c with tags := t' } ∧ t'.srv = t.srv := by
    unfold dropCmd
    rw [ht]
    split
    · exact ⟨_, rfl, rfl⟩
    · exact ⟨t, rfl, rfl⟩
  obtain ⟨t', ht', ht2'⟩ := d2
  rw [ht']
  refine ⟨g1.trans hb.1, g2.trans hb.2.1, g3.trans hb.2.2.1, g4.trans hb.2.2.2.1, ?_, ?_,
    fun h => hb.2.2.2.2.2 ▸ g7 h⟩
  · intro h
    show t'.srv = false
    rw [ht2', ht2, if_pos h]
  · intro h
    have e : t'.srv = y.c.tags.srv := by rw [ht2', ht2, h, if_neg (by decide)]
    have hbt : (began i ga c).tags.srv = c.tags.srv := by rw [hb.2.2.2.2.1]
    exact ⟨fun hs => e.trans ((g5 hs).trans hbt), fun hs => e.trans (g6 (hbt.trans hs))⟩

/-! ### The count -/

/-- How many bytes are still to come, when the end of the count is near: the bytes of the last word,
and of the one or two words before it. `gp &&& 4`: the current word is the last one, `gp &&& 2`: the
next one is, `gp &&& 1`: the one after that. -/
def left (bk : Bool) (gp : B) : Nat :=
  if bk then
    if gp &&& 4 ≠ 0 then (pos gp + 3 - last gp) % 4 + 1
    else if gp &&& 2 ≠ 0 then (pos gp + 1) + ((3 + 3 - last gp) % 4 + 1)
    else (pos gp + 1) + 4 + ((3 + 3 - last gp) % 4 + 1)
  else
    if gp &&& 4 ≠ 0 then (last gp + 3 - pos gp) % 4 + 1
    else if gp &&& 2 ≠ 0 then (4 - pos gp) + ((last gp + 3) % 4 + 1)
    else (4 - pos gp) + 4 + ((last gp + 3) % 4 + 1)

/-- The end of the count is near. -/
def Near (gp : B) : Prop := gp &&& 7 ≠ 0
instance (gp : B) : Decidable (Near gp) := by unfold Near; infer_instance

/-- The position after a byte, with the flags moved on at the end of a word. -/
def movedOn (next : B → B) (wrap gp : B) : B :=
  if (if next gp &&& 4 = 0 then next gp &&& 0x60 == wrap else atLast (next gp)) then
    if next gp &&& 4 ≠ 0 then next gp
    else if next gp &&& 2 ≠ 0 then next gp ||| 4
    else if next gp &&& 1 ≠ 0 then next gp ||| 2 else next gp
  else next gp

/-- And whether the count has run out. -/
def ranOut (next : B → B) (gp : B) : Bool := next gp &&& 4 != 0 && atLast (next gp)

theorem readFull_gp {c : Chan} (hcd : c.cd = false) :
    (readFull c).gp = (if c.cFull then
      if c.gp &&& 4 ≠ 0 then c.gp
      else if c.gp &&& 2 ≠ 0 then c.gp ||| 4
      else if c.gp &&& 1 ≠ 0 then c.gp ||| 2 else c.gp
     else c.gp) ∧
    (readFull c).ifStop = if c.cFull ∧ c.gp &&& 4 ≠ 0 then true else c.ifStop := by
  unfold readFull
  by_cases h : c.cFull = true
  · rw [if_pos h, if_pos h]
    by_cases h4 : c.gp &&& 4 ≠ 0
    · rw [if_pos h4, if_pos h4, if_neg (show ¬ c.cd = true by rw [hcd]; decide),
        if_pos (show c.cFull = true ∧ c.gp &&& 4 ≠ 0 from ⟨h, h4⟩)]
      exact ⟨rfl, rfl⟩
    · rw [if_neg h4, if_neg h4,
        if_neg (show ¬ (c.cFull = true ∧ c.gp &&& 4 ≠ 0) from fun e => h4 e.2)]
      by_cases h2 : c.gp &&& 2 ≠ 0
      · rw [if_pos h2, if_pos h2]; exact ⟨rfl, rfl⟩
      · rw [if_neg h2, if_neg h2]
        by_cases h1 : c.gp &&& 1 ≠ 0
        · rw [if_pos h1, if_pos h1]; exact ⟨rfl, rfl⟩
        · rw [if_neg h1, if_neg h1]; exact ⟨rfl, rfl⟩
  · rw [if_neg h, if_neg h,
      if_neg (show ¬ (c.cFull = true ∧ c.gp &&& 4 ≠ 0) from fun e => h e.1)]; exact ⟨rfl, rfl⟩

theorem readByte_gp {next : B → B} {wrap : B} {n : In} {c : Chan} (hf : c.cFull = false)
    (hs : c.ifStop = false) (hcd : c.cd = false) :
    (readByte next wrap n c).gp = movedOn next wrap c.gp ∧
      (readByte next wrap n c).ifStop = ranOut next c.gp := by
  unfold readByte
  rw [if_neg (by rw [hf]; decide)]
  have h := readFull_gp (c := { c with
    cReg := putB c.cReg (byteNo c.gp) n.data, cci := c.cci ||| (1#4 <<< byteNo c.gp),
    gp := next c.gp, tags := { c.tags with srv := true },
    cFull := if next c.gp &&& 4 = 0 then next c.gp &&& 0x60 == wrap else atLast (next c.gp) }) hcd
  refine ⟨h.1, h.2.trans ?_⟩
  dsimp only
  rw [hs]
  unfold ranOut
  by_cases h4 : next c.gp &&& 4 = 0
  · rw [if_neg (fun e => e.2 h4), h4]; rfl
  · rw [if_neg h4]
    cases ha : atLast (next c.gp)
    · rw [if_neg (fun e => nomatch e.1), Bool.and_false]
    · rw [if_pos ⟨rfl, h4⟩, Bool.and_true]
      exact (bne_iff_ne.2 h4).symm

theorem left_next : ∀ gp : B, Near gp → Ahead false gp →
    if ranOut gpNext gp then left false gp = 1
    else Near (movedOn gpNext 0 gp) ∧ left false gp = left false (movedOn gpNext 0 gp) + 1 := by
  decide +kernel

theorem left_prev : ∀ gp : B, Near gp → Ahead true gp →
    if ranOut gpPrev gp then left true gp = 1
    else Near (movedOn gpPrev 0x60 gp) ∧ left true gp = left true (movedOn gpPrev 0x60 gp) + 1 := by
  decide +kernel

/-- Bytes that may still come. -/
def Chan.room (c : Chan) : Nat := if c.ifStop then 0 else left (back c) c.gp

theorem pci_frame (c : Chan) : (pci c).gp = c.gp ∧ (pci c).ifStop = c.ifStop ∧ (pci c).op = c.op ∧
    (pci c).tags = c.tags := by
  unfold pci; split <;> exact ⟨rfl, rfl, rfl, rfl⟩

/-- A request for service takes one off the count, or does nothing. -/
theorem serve_room {n : In} {c : Chan} (hop : c.op = 4 ∨ c.op = 6) (hcd : c.cd = false)
    (ha : c.ifStop = false → Ahead (back c) c.gp)
    (hn : c.ifStop = false → Near c.gp) (hz : n.t.srvIn = true → n.t.srv = false → c.tags.srv = false) :
    ((serve n c).ifStop = false → Near (serve n c).gp) ∧
    (serve n c).room + (if n.t.srvIn && n.t.oprIn && !n.t.srv && (serve n c).tags.srv then 1 else 0) =
      c.room := by
  unfold serve
  cases hc : (n.t.srvIn && n.t.oprIn && !n.t.srv) with
  | false =>
    simp only [Bool.false_eq_true, if_false, Bool.false_and, Nat.add_zero]
    exact ⟨hn, trivial⟩
  | true =>
    have hz := hz (by cases h : n.t.srvIn <;> simp [h] at hc ⊢)
      (by cases h : n.t.srv <;> simp [h] at hc ⊢)
    simp only [if_true, Bool.true_and]
    split
    · refine ⟨hn, ?_⟩
      show c.room + (if c.tags.srv = true then 1 else 0) = _
      rw [hz]; simp
    · rename_i hs
      have hs' : c.ifStop = false := by simpa using hs
      have room : ∀ c' : Chan, (pci c').room = c'.room := fun c' => by
        have h := pci_frame c'
        unfold Chan.room back; rw [h.1, h.2.1, h.2.2.1]
      split
      · have stay : ((pci c).ifStop = false → Near (pci c).gp) ∧
            (pci c).room + (if (pci c).tags.srv = true then 1 else 0) = c.room := by
          have h := pci_frame c
          rw [h.1, h.2.1, h.2.2.2, hz, room]
          exact ⟨hn, by simp⟩
        have read : ∀ (bk : Bool) (next : B → B) (wrap : B), back c = bk →
            (∀ gp : B, Near gp → Ahead bk gp → if ranOut next gp then left bk gp = 1
              else Near (movedOn next wrap gp) ∧ left bk gp = left bk (movedOn next wrap gp) + 1) →
            ((pci (readByte next wrap n c)).ifStop = false → Near (pci (readByte next wrap n c)).gp) ∧
            (pci (readByte next wrap n c)).room +
              (if (pci (readByte next wrap n c)).tags.srv = true then 1 else 0) = c.room := by
          intro bk next wrap hb hl
          cases hf : c.cFull with
          | true =>
            have e : readByte next wrap n c = c := by unfold readByte; rw [if_pos hf]
            rw [e]; exact stay
          | false =>
            obtain ⟨r1, r2⟩ := readByte_gp (next := next) (wrap := wrap) (n := n) hf hs' hcd
            have r3 : (readByte next wrap n c).tags.srv = true := by
              unfold readByte
              rw [if_neg (by rw [hf]; decide)]
              unfold readFull
              repeat' split
              all_goals rfl
            have hbk : back (readByte next wrap n c) = bk := by
              rw [← hb]; unfold back readByte
              rw [if_neg (by rw [hf]; decide)]
              unfold readFull
              repeat' split
              all_goals rfl
            have h := pci_frame (readByte next wrap n c)
            have hk := hl c.gp (hn hs') (hb ▸ ha hs')
            rw [h.1, h.2.1, h.2.2.2, r3, room, r1, r2, if_pos rfl]
            unfold Chan.room
            rw [hbk, hb, r1, r2, hs', if_neg (show ¬ false = true by decide)]
            cases hr : ranOut next c.gp with
            | true =>
              rw [hr, if_pos (show true = true from rfl)] at hk
              exact ⟨(fun e => nomatch e), by rw [hk, if_pos (show true = true from rfl)]⟩
            | false =>
              rw [hr, if_neg (show ¬ false = true by decide)] at hk
              exact ⟨fun _ => hk.1, by rw [hk.2, if_neg (show ¬ false = true by decide)]⟩
        rcases hop with ho | ho
        · rw [ho]
          exact read false gpNext 0 (by unfold back; rw [ho]; rfl) left_next
        · rw [ho]
          exact read true gpPrev 0x60 (by unfold back; rw [ho]; rfl) left_prev
      · refine ⟨hn, ?_⟩
        rw [hz]; simp

/-- A cycle takes as many bytes as it takes off the count. -/
theorem cycled_room {i : Nat} {n : In} {ga gw : Glob} {c : Chan} (hop : c.op = 4 ∨ c.op = 6)
    (hcd : c.cd = false) (ha : c.ifStop = false → Ahead (back c) c.gp)
    (h1 : Reading (began i ga c)) (h2 : n.t.srv = c.tags.srv) (h3 : (n.t.srvIn && n.t.staIn) = false)
    (hn : c.ifStop = false → Near c.gp) :
    ((cycled i n ga gw c).ifStop = false → Near (cycled i n ga gw c).gp) ∧
    (cycled i n ga gw c).room + (if accepts n c (cycled i n ga gw c) then 1 else 0) = c.room := by
  obtain ⟨z, e, g1, g2, g3, g4, g5, g6, g7⟩ := before_serve (i := i) (n := n) (gw := gw) h1
  have hz : n.t.srvIn = true → n.t.srv = false → z.tags.srv = false := by
    intro ha hb
    have hs : n.t.staIn = false := by rw [ha] at h3; simpa using h3
    rw [(g6 (by rw [hb]; rfl)).1 hs, ← h2, hb]
  have hb : back z = back c := by unfold back; rw [g3]
  have r := serve_room (n := n) (c := z) (g3 ▸ hop) (g4.trans hcd)
    (fun h => by rw [hb, g1]; exact ha (g2 ▸ h)) (fun h => by rw [g1]; exact hn (g2 ▸ h)) hz
  have hroom : z.room = c.room := by unfold Chan.room; rw [hb, g1, g2]
  rw [hroom] at r
  rw [e]
  unfold accepts
  rw [← h2]
  exact r

end Verif.Sel50
