import Verif.Sel50.ReadInv

/-! # Runs of a channel reading -/

namespace Verif.Sel50

theorem byteNo_keep (gp v : B) (h : v &&& 0x60 = 0) : byteNo ((gp &&& 0xe7) ||| v) = byteNo gp := by
  have k : ∀ x : B, byteNo x = byteNo (x &&& 0x60) := by decide +kernel
  have e : ((gp &&& 0xe7) ||| v) &&& 0x60 = gp &&& 0x60 := by
    have h1 : ((gp &&& 0xe7) ||| v) &&& 0x60 = (gp &&& 0xe7 &&& 0x60) ||| (v &&& 0x60) := by
      apply BitVec.eq_of_getLsbD_eq
      intro j hj
      simp only [BitVec.getLsbD_and, BitVec.getLsbD_or]
      cases gp.getLsbD j <;> cases v.getLsbD j <;> simp
    rw [h1, h, BitVec.and_assoc]
    show gp &&& 0x60 ||| 0#8 = _
    exact BitVec.or_zero
  rw [k, e, ← k]

theorem low2 (w : W) : (w &&& 3).setWidth 8 &&& 3 = (w &&& 3).setWidth 8 := by
  have h : (3#8) = (3#32).setWidth 8 := by decide
  show (w &&& 3#32).setWidth 8 &&& 3#8 = _
  rw [h, ← BitVec.setWidth_and, BitVec.and_assoc]
  rfl

theorem flags_low (k : Nat) : (lastForw k = 4 ∨ lastForw k = 2 ∨ lastForw k = 1 ∨ lastForw k = 0) ∧
    (lastBack k = 4 ∨ lastBack k = 2 ∨ lastBack k = 1 ∨ lastBack k = 0) := by
  unfold lastForw lastBack
  constructor
  · split
    · exact .inl rfl
    · split
      · exact .inr (.inl rfl)
      · split
        · exact .inr (.inr (.inl rfl))
        · exact .inr (.inr (.inr rfl))
  · split
    · exact .inl rfl
    · split
      · exact .inr (.inl rfl)
      · split
        · exact .inr (.inr (.inl rfl))
        · exact .inr (.inr (.inr rfl))

theorem low_clear : ∀ q : B, q &&& 3 = q →
    (q <<< 3 ||| 4) &&& 0x60 = 0 ∧ (q <<< 3 ||| 2) &&& 0x60 = 0 ∧ (q <<< 3 ||| 1) &&& 0x60 = 0 ∧
      (q <<< 3 ||| 0) &&& 0x60 = 0 := by decide +kernel

/-- The test for the last word changes only the end position and the number of words. -/
theorem lastWord_gp {aob : W} {c : Chan} (h : c.op = 4 ∨ c.op = 6) :
    ∃ g, lastWord aob c = { c with gp := g } ∧ byteNo g = byteNo c.gp := by
  have hop1 : c.op ≠ 1 := by rcases h with h | h <;> rw [h] <;> decide
  unfold lastWord
  rw [if_neg (fun hh => hop1 hh.1)]
  split
  · exact ⟨c.gp, rfl, rfl⟩
  · refine ⟨_, rfl, byteNo_keep _ _ ?_⟩
    have hl := low_clear _ (low2 aob)
    have hf := flags_low (aob &&& 0xf).toNat
    rcases h with h | h
    · rw [h]
      show ((aob &&& 3).setWidth 8 <<< 3 ||| lastForw _) &&& 0x60 = 0
      rcases hf.1 with e | e | e | e <;> rw [e]
      · exact hl.1
      · exact hl.2.1
      · exact hl.2.2.1
      · exact hl.2.2.2
    · rw [h]
      show ((aob &&& 3).setWidth 8 <<< 3 ||| lastBack _) &&& 0x60 = 0
      rcases hf.2 with e | e | e | e <;> rw [e]
      · exact hl.1
      · exact hl.2.1
      · exact hl.2.2.1
      · exact hl.2.2.2

theorem Rd.Inv.step {i : Nat} {s : Rd} (v : s.Inv) {e : RdEv} (ok : e.Ok i s) :
    (s.step i e).Inv := by
  obtain ⟨v, hq⟩ := v
  have hq' : s.taken = s.stored ++ pend s.ls s.done s.c := hq
  cases e with
  | cycle n ga gw =>
    obtain ⟨h1, h2, h3, h4⟩ := ok
    obtain ⟨a, b⟩ := cycled_ok (i := i) (ga := ga) v h1 h2 h3 h4
    refine ⟨a, ?_⟩
    show s.taken ++ _ = s.stored ++ pend s.ls (s.done && !gw.last) (cycled i n ga gw s.c)
    rw [b, hq', List.append_assoc]
  | gate aob =>
    have hn4 : s.c.chpos ≠ 0x400 := by
      rcases ok.2.2.2 with h | h | h | h <;> rw [h] <;> decide
    by_cases hp : s.c.chpos = 0x200
    · have hd : s.done = false := by
        cases hd : s.done with
        | false => rfl
        | true => rw [v.don hd] at hp; contradiction
      have hg : gate aob s.c =
          { s.c with lsFull := true, bFull := false, iostat := s.c.iostat ||| 0x10 } := by
        unfold gate; rw [if_pos hp]
      have hst : s.step i (.gate aob) = { s with
          c := { s.c with lsFull := true, bFull := false, iostat := s.c.iostat ||| 0x10 },
          ls := s.c.bReg } := by
        show ({ s with c := _, ls := _ } : Rd) = _
        rw [hg, if_pos hp]
      rw [hst]
      have hpd : pend s.c.bReg s.done
          { s.c with lsFull := true, bFull := false, iostat := s.c.iostat ||| 0x10 } =
          pend s.ls s.done s.c := by
        unfold pend back
        rcases v.lsr hp with ⟨h1, h2, h3⟩ | ⟨h1, h2, h3⟩
        · rw [hd]; simp [h1, h2, h3]
        · rw [hd]; simp [h1, h2, h3]
      refine ⟨⟨v.op, v.cd, ?_, fun _ => rfl, v.don, fun _ => .inr ⟨rfl, rfl, rfl⟩, v.ord, v.ahd⟩, ?_⟩
      · intro h
        have h' : s.c.chpos = 0x10 := h
        rw [hp] at h'; contradiction
      · show s.taken = s.stored ++ pend s.c.bReg s.done _
        rw [hpd]; exact hq'
    · have hg : gate aob s.c = s.c := by unfold gate; rw [if_neg hp, if_neg hn4]
      have hst : s.step i (.gate aob) = s := by
        show ({ s with c := _, ls := _ } : Rd) = _
        rw [hg, if_neg hp]
      rw [hst]; exact ⟨v, hq⟩
  | store =>
    obtain ⟨hp, hd⟩ := ok
    have hl := v.rst hp
    refine ⟨⟨v.op, v.cd, v.rst, v.req, fun _ => hp, v.lsr, v.ord, v.ahd⟩, ?_⟩
    show s.taken = s.stored ++ marked (back s.c) s.ls s.c.cli ++ pend s.ls true s.c
    rw [hq', hd]
    unfold pend
    simp [hl.1]
  | count aob =>
    obtain ⟨hr, ha⟩ := ok
    obtain ⟨g, hg, hb⟩ := lastWord_gp (aob := aob) v.op
    rw [hg] at ha
    have hst : s.step i (.count aob) = { s with c := { s.c with gp := g } } := by
      show ({ s with c := _ } : Rd) = _
      rw [hg]
    rw [hst]
    refine ⟨⟨v.op, v.cd, v.rst, v.req, v.don, v.lsr, ?_, fun _ => ha⟩, hq⟩
    intro h k hk hm
    have := v.ord h k hk hm
    show if back s.c then k < byteNo g else byteNo g < k
    rw [hb]; exact this
  | stop =>
    exact ⟨⟨v.op, v.cd, v.rst, v.req, v.don, v.lsr, v.ord, fun h => nomatch h⟩, hq⟩

theorem Rd.Run.inv {i : Nat} {s t : Rd} (h : Rd.Run i s t) (v : s.Inv) : t.Inv := by
  induction h with
  | refl => exact v
  | step e _ ok ih => exact ih.step ok

/-- A transfer begins: nothing has been read. -/
structure Rd.Begin (s : Rd) : Prop where
  op : s.c.op = 4 ∨ s.c.op = 6
  cd : s.c.cd = false
  chpos : s.c.chpos = 0
  chreq : s.c.chreq = 0
  full : s.c.cFull = false ∧ s.c.bFull = false ∧ s.c.lsFull = false
  cci : s.c.cci = 0
  done : s.done = false
  taken : s.taken = []
  stored : s.stored = []
  ahead : Ahead (back s.c) s.c.gp

theorem Rd.Begin.inv {s : Rd} (b : s.Begin) : s.Inv := by
  refine ⟨⟨b.op, b.cd, ?_, ?_, ?_, ?_, ?_, fun _ => b.ahead⟩, ?_⟩
  · intro h; rw [b.chpos] at h; contradiction
  · intro h; rw [b.chreq] at h; contradiction
  · intro h; rw [b.done] at h; contradiction
  · intro h; rw [b.chpos] at h; contradiction
  · intro _ k _ h
    rw [b.cci] at h; simp at h
  · unfold Rd.pending
    rw [b.taken, b.stored, b.full.2.1, b.full.2.2, b.cci, marked_zero]; rfl

/-! ### The end of the operation is asked for only when all is stored -/

theorem began_req0 {i : Nat} {ga : Glob} {c : Chan} (h : c.chreq = 0) :
    (began i ga c).chreq = 0 := by
  unfold began accept
  split
  · exact h
  · split
    · exact h
    · dsimp only
      rw [h]
      rfl

theorem work_req {i : Nat} {n : In} {x : X} (hs : n.t.srvIn = false) :
    (work i n x).c.chreq = (if x.c.chpos ≠ 0 then positions i n x
       else if x.c.polling then poll i n x else auto i n x).c.chreq ∧
    (work i n x).c.bFull = (if x.c.chpos ≠ 0 then positions i n x
       else if x.c.polling then poll i n x else auto i n x).c.bFull ∧
    (work i n x).c.lsFull = (if x.c.chpos ≠ 0 then positions i n x
       else if x.c.polling then poll i n x else auto i n x).c.lsFull ∧
    (work i n x).c.cci = (if x.c.chpos ≠ 0 then positions i n x
       else if x.c.polling then poll i n x else auto i n x).c.cci := by
  unfold work
  dsimp only
  generalize (if x.c.chpos ≠ 0 then positions i n x
       else if x.c.polling then poll i n x else auto i n x) = y
  have e : ∀ c, serve n c = c := fun c => by unfold serve; rw [hs]; simp
  rw [e]
  have d1 : ∀ c, ∃ t, dropCmd n c = { c with tags := t } := fun c => by
    unfold dropCmd; split
    · exact ⟨_, rfl⟩
    · exact ⟨c.tags, rfl⟩
  have d2 : ∃ t, (dropSrv i n y).c = { y.c with tags := t } := by
    unfold dropSrv; split
    · exact ⟨_, rfl⟩
    · exact ⟨y.c.tags, rfl⟩
  obtain ⟨t, ht⟩ := d1 (dropSrv i n y).c
  obtain ⟨u, hu⟩ := d2
  rw [ht, hu]
  exact ⟨rfl, rfl, rfl, rfl⟩

theorem ending_end {n : In} {c : Chan} (h0 : c.chreq ≠ 0x10) (ho : c.op = 4 ∨ c.op = 6)
    (h : (ending n c).chreq = 0x10) :
    (ending n c).bFull = false ∧ (ending n c).lsFull = false ∧ (ending n c).cci = 0 := by
  have hop1 : c.op ≠ 1 := by rcases ho with h | h <;> rw [h] <;> decide
  unfold ending at h ⊢
  split at h
  · simp only [if_neg hop1] at h ⊢
    rename_i hc
    rw [if_pos hc]
    split at h
    · rename_i h2
      rw [if_pos h2]
      simp at h2
      exact ⟨h2.1.1, h2.2, h2.1.2.2⟩
    · exact absurd h h0
  · exact absurd h h0

theorem cycled_end {i : Nat} {n : In} {ga gw : Glob} {c : Chan} {ls : W} {d : Bool}
    (v : CInv ls d c) (hr : Reading (began i ga c)) (h0 : c.chreq = 0) (hs : n.t.srvIn = false)
    (hl : gw.last = true → (began i ga c).chpos = 0x10 → d = true)
    (h : (cycled i n ga gw c).chreq = 0x10) :
    pend ls (d && !gw.last) (cycled i n ga gw c) = [] := by
  have hb0 := began_req0 (i := i) (ga := ga) h0
  obtain ⟨b1, b2, b3⟩ := began_ok v hr
  obtain ⟨w1, w2, w3, w4⟩ := work_req (i := i) (n := n) (x := { c := began i ga c, g := gw }) hs
  unfold cycled at h ⊢
  rw [w1] at h
  rcases hr.2.2.2 with p | p | p | p
  · have e : (if (began i ga c).chpos ≠ 0 then positions i n { c := began i ga c, g := gw }
       else if (began i ga c).polling then poll i n { c := began i ga c, g := gw }
       else auto i n { c := began i ga c, g := gw }) = auto i n { c := began i ga c, g := gw } := by
      rw [if_neg (by rw [p]; simp), hr.2.2.1, if_neg (by decide)]
    rw [e] at h w2 w3 w4
    have hd : d = false := by
      cases hd : d with
      | false => rfl
      | true => have := b1.don hd; rw [p] at this; contradiction
    subst hd
    obtain ⟨a1, a2, a3, a4⟩ := cToB_ok (n := n) b1 p
    have ha : auto i n { c := began i ga c, g := gw } = (fun y : X => { y with
        c := ending n (ask n (gone n y.c)) })
        (lsAsk i { c := cToB n (began i ga c), g := gw }) := by
      unfold auto; dsimp only; rw [bToC_id a1.op]
    rw [ha] at h w2 w3 w4
    dsimp only at h w2 w3 w4
    obtain ⟨l1, l2, l3⟩ := lsAsk_ok (i := i) (x := { c := cToB n (began i ga c), g := gw }) a1
    obtain ⟨c1, c2, c3⟩ := gone_ok (n := n) l1
    obtain ⟨d1, d2, d3⟩ := ask_ok (n := n) c1
    have hq : (ask n (gone n (lsAsk i { c := cToB n (began i ga c), g := gw }).c)).chreq ≠ 0x10 := by
      have q1 : (cToB n (began i ga c)).chreq = 0 := by
        unfold cToB; split
        · exact hb0
        · exact hb0
      have q2 : (lsAsk i { c := cToB n (began i ga c), g := gw }).c.chreq = 0 := by
        unfold lsAsk
        dsimp only
        repeat' split
        all_goals exact q1
      have q3 : (gone n (lsAsk i { c := cToB n (began i ga c), g := gw }).c).chreq = 0 := by
        unfold gone; split
        · exact q2
        · exact q2
      unfold ask
      dsimp only
      repeat' split
      all_goals first
        | (rw [q3]; decide)
        | exact (by decide : (0x80#8) ≠ 0x10)
    have he := ending_end hq d1.op h
    unfold pend
    rw [w2, w3, w4, he.1, he.2.1, he.2.2, marked_zero]
    rfl
  · exfalso
    rw [if_pos (by rw [p]; decide), at200 i n { c := began i ga c, g := gw } p] at h
    dsimp only at h
    have : (began i ga c).chreq = 0x10 := by
      split at h
      · exact h
      · exact h
    rw [hb0] at this; contradiction
  · exfalso
    rw [if_pos (by rw [p]; decide), at10 i n { c := began i ga c, g := gw } p] at h
    unfold posRst at h
    split at h
    · have h' : (if (began i ga c).c1 = true then 0x08 else (began i ga c).chreq) = 0x10 := h
      rw [hb0] at h'
      split at h' <;> contradiction
    · have h' : (began i ga c).chreq = 0x10 := h
      rw [hb0] at h'; contradiction
  · exfalso
    rw [if_pos (by rw [p]; decide), at04 i n { c := began i ga c, g := gw } p] at h
    have k : ∀ x : X, x.c.chreq = 0 → (posEnd i n x).c.chreq ≠ 0x10 := by
      intro x hx
      unfold posEnd
      have en : (endb i n { x with g := { x.g with dtc1 := false } }).c.chreq ≠ 0x10 := by
        unfold endb
        dsimp only
        split
        · rw [hx]; decide
        · split
          · split
            · exact (by decide : (0x40#8) ≠ 0x10)
            · show x.c.chreq ≠ _
              rw [hx]; decide
          · split
            · show (if _ then _ else _) ≠ _
              split
              · decide
              · split
                · decide
                · rw [hx]; decide
            · show x.c.chreq ≠ _
              rw [hx]; decide
      split
      · have fin : ∀ y : X, y.c.chreq ≠ 0x10 → (endLast y).c.chreq ≠ 0x10 := by
          intro y hy
          unfold endLast
          split
          · exact hy
          · exact hy
        apply fin
        split
        · split
          · show x.c.chreq ≠ _
            rw [hx]; decide
          · exact en
          · show x.c.chreq ≠ _
            rw [hx]; decide
        · rw [hx]; decide
      · rw [hx]; decide
    exact k { c := began i ga c, g := gw } hb0 h

end Verif.Sel50
