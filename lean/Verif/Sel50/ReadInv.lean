import Verif.Sel50.Read

/-! # The invariant of reading is kept -/

namespace Verif.Sel50

/-- Nothing of the data moved. -/
structure Same (c c' : Chan) : Prop where
  op : c'.op = c.op
  cd : c'.cd = c.cd
  lsFull : c'.lsFull = c.lsFull
  bFull : c'.bFull = c.bFull
  cFull : c'.cFull = c.cFull
  ifStop : c'.ifStop = c.ifStop
  bReg : c'.bReg = c.bReg
  cReg : c'.cReg = c.cReg
  gp : c'.gp = c.gp
  cci : c'.cci = c.cci
  cbi : c'.cbi = c.cbi
  cli : c'.cli = c.cli

theorem Same.rfl' (c : Chan) : Same c c := ⟨rfl, rfl, rfl, rfl, rfl, rfl, rfl, rfl, rfl, rfl, rfl, rfl⟩

theorem Same.trans {a b c : Chan} (h : Same a b) (g : Same b c) : Same a c :=
  ⟨g.op.trans h.op, g.cd.trans h.cd, g.lsFull.trans h.lsFull, g.bFull.trans h.bFull,
   g.cFull.trans h.cFull, g.ifStop.trans h.ifStop, g.bReg.trans h.bReg, g.cReg.trans h.cReg,
   g.gp.trans h.gp, g.cci.trans h.cci, g.cbi.trans h.cbi, g.cli.trans h.cli⟩

/-- The bytes on their way, of a channel and the word in local storage. -/
def pend (ls : W) (done : Bool) (c : Chan) : List B :=
  (if c.lsFull && !done then marked (back c) ls c.cli else []) ++
  (if c.bFull then marked (back c) c.bReg c.cbi else []) ++
  marked (back c) c.cReg c.cci

theorem Same.pend {c c' : Chan} (h : Same c c') (ls : W) (d : Bool) :
    pend ls d c' = pend ls d c := by
  unfold Sel50.pend back
  rw [h.op, h.lsFull, h.bFull, h.bReg, h.cReg, h.cci, h.cbi, h.cli]

/-- The positions may change in these ways without harm. -/
theorem Same.inv {c c' : Chan} {ls : W} {d d' : Bool} (h : Same c c') (i : CInv ls d c)
    (p : c'.chpos = c.chpos ∨ c'.chpos = 0 ∨ c'.chpos = 0x04 ∨ 
      (c'.chpos = 0x10 ∧ c.lsFull = true ∧ c'.chreq ≠ 0x80))
    (q : c'.chreq = c.chreq ∨ c'.chreq ≠ 0x80) (r : d' = true → c'.chpos = 0x10) :
    CInv ls d' c' where
  op := h.op ▸ i.op
  cd := h.cd.trans i.cd
  rst := fun hc => by
    rw [h.lsFull]
    rcases p with p | p | p | ⟨_, p⟩
    · refine ⟨(i.rst (p ▸ hc)).1, ?_⟩
      rcases q with q | q
      · rw [q]; exact (i.rst (p ▸ hc)).2
      · exact q
    · rw [p] at hc; contradiction
    · rw [p] at hc; contradiction
    · exact p
  req := fun hc => by
    rw [h.lsFull]
    rcases q with q | q
    · exact i.req (q ▸ hc)
    · exact absurd hc q
  don := r
  lsr := fun hc => by
    rw [h.lsFull, h.bFull, h.cli, h.cbi, h.bReg]
    rcases p with p | p | p | ⟨p, _⟩
    · exact i.lsr (p ▸ hc)
    · rw [p] at hc; contradiction
    · rw [p] at hc; contradiction
    · rw [p] at hc; contradiction
  ord := fun hc => by unfold back; rw [h.op, h.gp, h.cci]; exact i.ord (h.cFull ▸ hc)
  ahd := fun hc => by unfold back; rw [h.op, h.gp]; exact i.ahd (h.ifStop ▸ hc)

/-! ### A byte -/

theorem next_ok : ∀ gp : B, Ahead false gp →
    (if gpNext gp &&& 4 = 0 then gpNext gp &&& 0x60 == 0 else atLast (gpNext gp)) = false →
    byteNo (gpNext gp) < byteNo gp ∧ Ahead false (gpNext gp) := by decide +kernel

theorem prev_ok : ∀ gp : B, Ahead true gp →
    (if gpPrev gp &&& 4 = 0 then gpPrev gp &&& 0x60 == 0x60 else atLast (gpPrev gp)) = false →
    byteNo gp < byteNo (gpPrev gp) ∧ Ahead true (gpPrev gp) := by decide +kernel

theorem next_full : ∀ gp : B, gpNext gp &&& 4 = 0 → (gpNext gp &&& 0x60 == 0) = true →
    Ahead false (gpNext gp) ∧ Ahead false (gpNext gp ||| 4) ∧ Ahead false (gpNext gp ||| 2) := by
  decide +kernel

theorem prev_full : ∀ gp : B, gpPrev gp &&& 4 = 0 → (gpPrev gp &&& 0x60 == 0x60) = true →
    Ahead true (gpPrev gp) ∧ Ahead true (gpPrev gp ||| 4) ∧ Ahead true (gpPrev gp ||| 2) := by
  decide +kernel

/-- What a direction of reading has to satisfy. -/
structure Dir (bk : Bool) (next : B → B) (wrap : B) : Prop where
  ok : ∀ gp : B, Ahead bk gp →
    (if next gp &&& 4 = 0 then next gp &&& 0x60 == wrap else atLast (next gp)) = false →
    (if bk then byteNo gp < byteNo (next gp) else byteNo (next gp) < byteNo gp) ∧ Ahead bk (next gp)
  full : ∀ gp : B, next gp &&& 4 = 0 → (next gp &&& 0x60 == wrap) = true →
    Ahead bk (next gp) ∧ Ahead bk (next gp ||| 4) ∧ Ahead bk (next gp ||| 2)

theorem dir_f : Dir false gpNext 0 := ⟨next_ok, next_full⟩
theorem dir_b : Dir true gpPrev 0x60 := ⟨prev_ok, prev_full⟩

theorem Behind.put {bk : Bool} {gp gp' : B} {m : BitVec 4} (h : Behind bk gp m)
    (n : if bk then byteNo gp < byteNo gp' else byteNo gp' < byteNo gp) :
    Behind bk gp' (m ||| 1#4 <<< byteNo gp) := by
  intro k hk hb
  have hm := mask_lemma ⟨byteNo gp, byteNo_lt gp⟩ m ⟨k, hk⟩
  simp only [Fin.mk.injEq] at hm
  rw [hm] at hb
  by_cases he : k = byteNo gp
  · subst he; exact n
  · have h1 := h k hk (by simpa [he] using hb)
    cases bk <;> simp at h1 n ⊢ <;> omega

/-- A byte read joins the bytes on their way. -/
theorem readByte_ok {bk : Bool} {next : B → B} {wrap : B} (D : Dir bk next wrap) {n : In} {c : Chan}
    {ls : W} {d : Bool} (i : CInv ls d c) (hb : back c = bk) (hs : c.ifStop = false)
    (hf : c.cFull = false) :
    CInv ls d (readByte next wrap n c) ∧
      pend ls d (readByte next wrap n c) = pend ls d c ++ [n.data] ∧
      (readByte next wrap n c).tags.srv = true := by
  subst hb
  have ho := i.ord hf
  have ha := i.ahd hs
  have hput := marked_put (back c) c.gp c.cReg c.cci n.data ho
  have hcd := i.cd
  have hp : ∀ (g : B) (s f q : Bool), pend ls d
      { c with cReg := putB c.cReg (byteNo c.gp) n.data, cci := c.cci ||| (1#4 <<< byteNo c.gp),
               gp := g, tags := { c.tags with srv := true }, cFull := f, ifStop := s, c1 := q } =
      pend ls d c ++ [n.data] := by
    intro g s f q
    show _ ++ _ ++ marked (back c) _ _ = _
    rw [hput, ← List.append_assoc]; rfl
  have hi : ∀ (g : B) (s f q : Bool),
      (f = false → Behind (back c) g (c.cci ||| (1#4 <<< byteNo c.gp))) →
      (s = false → Ahead (back c) g) → CInv ls d
      { c with cReg := putB c.cReg (byteNo c.gp) n.data, cci := c.cci ||| (1#4 <<< byteNo c.gp),
               gp := g, tags := { c.tags with srv := true }, cFull := f, ifStop := s, c1 := q } :=
    fun g s f q h1 h2 => ⟨i.op, i.cd, i.rst, i.req, i.don, i.lsr, h1, h2⟩
  unfold readByte
  rw [if_neg (by rw [hf]; decide)]
  cases hfull : (if next c.gp &&& 4 = 0 then next c.gp &&& 0x60 == wrap else atLast (next c.gp)) with
  | false =>
    have hok := D.ok c.gp ha hfull
    unfold readFull
    rw [if_neg (fun h => nomatch h)]
    refine ⟨?_, ?_, rfl⟩
    · have := hi (next c.gp) c.ifStop false c.c1 (fun _ => ho.put hok.1) (fun _ => hok.2)
      exact this
    · exact hp (next c.gp) c.ifStop false c.c1
  | true =>
    unfold readFull
    rw [if_pos rfl]
    by_cases h4 : next c.gp &&& 4 = 0
    · rw [if_pos h4] at hfull
      have hx := D.full c.gp h4 hfull
      rw [if_neg (by simpa using h4)]
      by_cases h2 : next c.gp &&& 2 ≠ 0
      · rw [if_pos h2]
        exact ⟨hi _ c.ifStop true c.c1 (fun h => nomatch h) (fun _ => hx.2.1),
          hp _ c.ifStop true c.c1, rfl⟩
      · rw [if_neg h2]
        by_cases h1 : next c.gp &&& 1 ≠ 0
        · rw [if_pos h1]
          exact ⟨hi _ c.ifStop true c.c1 (fun h => nomatch h) (fun _ => hx.2.2),
            hp _ c.ifStop true c.c1, rfl⟩
        · rw [if_neg h1]
          exact ⟨hi _ c.ifStop true c.c1 (fun h => nomatch h) (fun _ => hx.1),
            hp _ c.ifStop true c.c1, rfl⟩
    · rw [if_pos (by simpa using h4), if_neg (show ¬ c.cd = true by rw [hcd]; decide)]
      exact ⟨hi _ true true c.c1 (fun h => nomatch h) (fun h => nomatch h),
        hp _ true true c.c1, rfl⟩

theorem pci_same (c : Chan) : Same c (pci c) ∧ (pci c).chpos = c.chpos ∧ (pci c).tags = c.tags ∧
    ((pci c).chreq = c.chreq ∨ (pci c).chreq ≠ 0x80) := by
  unfold pci
  split
  · refine ⟨⟨rfl, rfl, rfl, rfl, rfl, rfl, rfl, rfl, rfl, rfl, rfl, rfl⟩, rfl, rfl, ?_⟩
    show (if _ then _ else _) = _ ∨ (if _ then _ else _) ≠ _
    split
    · exact .inr (by decide)
    · exact .inl rfl
  · exact ⟨.rfl' _, rfl, rfl, .inl rfl⟩

/-- The service of the device: a byte is taken exactly when service out rises. -/
theorem serve_ok {n : In} {c : Chan} {ls : W} {d : Bool} (i : CInv ls d c)
    (hsrv : n.t.srvIn = true → n.t.srv = false → c.tags.srv = false) :
    CInv ls d (serve n c) ∧
      pend ls d (serve n c) = pend ls d c ++
        (if n.t.srvIn && n.t.oprIn && !n.t.srv && (serve n c).tags.srv then [n.data] else []) ∧
      (n.t.srv = true → (serve n c).tags.srv = c.tags.srv) := by
  have key : ∀ c' : Chan, CInv ls d c' → CInv ls d (pci c') ∧ pend ls d (pci c') = pend ls d c' ∧
      (pci c').tags.srv = c'.tags.srv := fun c' i' =>
    have h := pci_same c'
    ⟨h.1.inv i' (.inl h.2.1) h.2.2.2 (fun e => h.2.1.trans (i'.don e)), h.1.pend ls d, by rw [h.2.2.1]⟩
  unfold serve
  cases hc : (n.t.srvIn && n.t.oprIn && !n.t.srv) with
  | false =>
    simp only [Bool.false_eq_true, if_false, Bool.false_and, List.append_nil]
    exact ⟨i, trivial, fun _ => trivial⟩
  | true =>
    have hn : n.t.srv = false := by
      cases h : n.t.srv
      · rfl
      · rw [h] at hc; simp at hc
    have hz := hsrv (by
      cases h : n.t.srvIn
      · rw [h] at hc; simp at hc
      · rfl) hn
    simp only [if_true, Bool.true_and]
    refine (fun ⟨a, b⟩ => ⟨a, b, fun h => by rw [hn] at h; contradiction⟩ : _ ∧ _ → _ ∧ _ ∧ _) ?_
    split
    · have hS : Same c { c with tags := { c.tags with cmd := true },
                                flags := if c.flags &&& 0x2000 = 0 then c.flags ||| 0x40
                                         else c.flags } :=
        ⟨rfl, rfl, rfl, rfl, rfl, rfl, rfl, rfl, rfl, rfl, rfl, rfl⟩
      refine ⟨hS.inv i (.inl rfl) (.inl rfl) i.don, ?_⟩
      rw [hS.pend]
      show _ = _ ++ if c.tags.srv = true then _ else _
      rw [hz]; simp
    · rename_i hs
      have hs' : c.ifStop = false := by simpa using hs
      split
      · have stay : CInv ls d (pci c) ∧ pend ls d (pci c) =
            pend ls d c ++ (if (pci c).tags.srv = true then [n.data] else []) := by
          obtain ⟨k1, k2, k3⟩ := key c i
          refine ⟨k1, ?_⟩
          rw [k2, k3, hz]; simp
        have read : ∀ (bk : Bool) (next : B → B) (wrap : B), Dir bk next wrap → back c = bk →
            CInv ls d (pci (readByte next wrap n c)) ∧ pend ls d (pci (readByte next wrap n c)) =
            pend ls d c ++ (if (pci (readByte next wrap n c)).tags.srv = true then [n.data] else [])
            := by
          intro bk next wrap D hb
          cases hf : c.cFull with
          | false =>
            obtain ⟨r1, r2, r3⟩ := readByte_ok (n := n) D i hb hs' hf
            obtain ⟨k1, k2, k3⟩ := key _ r1
            refine ⟨k1, ?_⟩
            rw [k2, k3, r2, r3]; simp
          | true =>
            have e : readByte next wrap n c = c := by unfold readByte; rw [if_pos hf]
            rw [e]; exact stay
        rcases i.op with ho | ho
        · rw [ho]
          exact read false gpNext 0 dir_f (by unfold back; rw [ho]; rfl)
        · rw [ho]
          exact read true gpPrev 0x60 dir_b (by unfold back; rw [ho]; rfl)
      · refine ⟨i, ?_⟩
        rw [hz]; simp

/-! ### The parts of a cycle -/

theorem no_pos (p : BitVec 16) (h : (p == 0 || p == 0x200 || p == 0x10 || p == 0x04) = false) :
    ¬ (p = 0 ∨ p = 0x200 ∨ p = 0x10 ∨ p = 0x04) := by
  rintro (rfl | rfl | rfl | rfl) <;> simp at h

/-- A request is accepted: only positions change. -/
theorem began_ok {i : Nat} {ga : Glob} {c : Chan} {ls : W} {d : Bool} (v : CInv ls d c)
    (hr : Reading (began i ga c)) :
    CInv ls d (began i ga c) ∧ pend ls d (began i ga c) = pend ls d c ∧
      (began i ga c).tags = c.tags := by
  have stay : CInv ls d c ∧ pend ls d c = pend ls d c ∧ c.tags = c.tags := ⟨v, rfl, rfl⟩
  have hd : c.chpos = 0 → d = false := fun h => by
    cases hd : d with
    | false => rfl
    | true => rw [v.don hd] at h; contradiction
  have go : ∀ c' : Chan, Same c c' → c'.tags = c.tags → c.chpos = 0 → c'.chreq = 0 →
      (c'.chpos = c.chpos ∨ c'.chpos = 0 ∨ c'.chpos = 0x04 ∨
        (c'.chpos = 0x10 ∧ c.lsFull = true ∧ c'.chreq ≠ 0x80)) →
      CInv ls d c' ∧ pend ls d c' = pend ls d c ∧ c'.tags = c.tags :=
    fun c' h ht h0 hq hp => ⟨h.inv v hp (.inr (by rw [hq]; decide))
      (fun e => by rw [hd h0] at e; contradiction), h.pend ls d, ht⟩
  have hop1 : c.op ≠ 1 := by rcases v.op with h | h <;> rw [h] <;> decide
  unfold began accept at hr ⊢
  by_cases h1 : (!(ga.last || !ga.breakOut)) = true
  · rw [if_pos h1]; exact stay
  · rw [if_neg h1] at hr ⊢
    by_cases h2 : (c.chpos != 0 || ga.breakOut || (ga.breakIn &&& mask i != 0)) = true
    · rw [if_pos h2]; exact stay
    · rw [if_neg h2] at hr ⊢
      have h0 : c.chpos = 0 := by
        simp at h2; exact h2.1.1
      dsimp only at hr ⊢
      split at hr
      · rename_i hq
        rw [if_neg hop1] at hr ⊢
        exact go _ ⟨rfl, rfl, rfl, rfl, rfl, rfl, rfl, rfl, rfl, rfl, rfl, rfl⟩ rfl h0 rfl
          (.inr (.inr (.inr ⟨rfl, v.req hq, (by decide : (0#8) ≠ 0x80)⟩)))
      · exact absurd hr.2.2.2 (no_pos 1 (by decide))
      · exact absurd hr.2.2.2 (no_pos 0x100 (by decide))
      · exact go _ ⟨rfl, rfl, rfl, rfl, rfl, rfl, rfl, rfl, rfl, rfl, rfl, rfl⟩ rfl h0 rfl
          (.inr (.inr (.inl rfl)))
      · split at hr
        · exact absurd hr.2.2.2 (no_pos 0x80 (by decide))
        · exact absurd hr.2.2.2 (no_pos 0x80 (by decide))
      · exact absurd hr.2.2.2 (no_pos 2 (by decide))
      · exact absurd hr.2.2.2 (no_pos 0x20 (by decide))
      · exact go _ ⟨rfl, rfl, rfl, rfl, rfl, rfl, rfl, rfl, rfl, rfl, rfl, rfl⟩ rfl h0 rfl
          (.inl rfl)

/-- What the middle part of a cycle keeps. -/
def Keeps (n : In) (ls : W) (d d' : Bool) (c c' : Chan) : Prop :=
  CInv ls d' c' ∧ pend ls d' c' = pend ls d c ∧
    (n.t.srvIn = true → n.t.staIn = false → c.tags.srv = false → c'.tags.srv = false)

theorem Same.keeps {n : In} {ls : W} {d d' : Bool} {c c' : Chan} (h : Same c c') (v : CInv ls d c)
    (p : c'.chpos = c.chpos ∨ c'.chpos = 0) (q : c'.chreq = c.chreq ∨ c'.chreq ≠ 0x80)
    (e : d' = d) (r : d' = true → c'.chpos = 0x10)
    (t : n.t.srvIn = true → n.t.staIn = false → c.tags.srv = false → c'.tags.srv = false) :
    Keeps n ls d d' c c' := by
  subst e
  exact ⟨h.inv v (p.elim .inl (fun p => .inr (.inl p))) q r, h.pend ls _, t⟩

theorem at200 (i : Nat) (n : In) (x : X) (h : x.c.chpos = 0x200) : (positions i n x).c =
    if x.g.last then { x.c with chpos := 0 } else x.c := by
  cases hl : x.g.last
  · have e : posLs x = x := by unfold posLs; rw [hl, h]; rfl
    unfold positions
    rw [e]
    simp [posUa, posCcw1, posCcw2, posSel, posRst, posWf, posEnd, posCmp, posIrq, h]
  · have e : posLs x = { x with c := { x.c with chpos := 0 } } := by
      unfold posLs; rw [hl, h]; rfl
    unfold positions
    rw [e]
    simp [posUa, posCcw1, posCcw2, posSel, posRst, posWf, posEnd, posCmp, posIrq]

theorem at10 (i : Nat) (n : In) (x : X) (h : x.c.chpos = 0x10) :
    (positions i n x).c = (posRst x).c := by
  unfold positions
  have e : posSel i n (posCcw2 i (posCcw1 i (posUa (posLs x)))) = x := by
    simp [posLs, posUa, posCcw1, posCcw2, posSel, h]
  rw [e]
  cases hl : x.g.last
  · have e : posRst x = x := by unfold posRst; rw [hl, h]; rfl
    rw [e]
    simp [posWf, posEnd, posCmp, posIrq, h]
  · have e : (posRst x).c.chpos = 0 := by unfold posRst; rw [hl, h]; rfl
    simp [posWf, posEnd, posCmp, posIrq, e]

theorem endb_same (i : Nat) (n : In) (x : X) : Same x.c (endb i n x).c ∧
    (endb i n x).c.chpos = x.c.chpos ∧ ((endb i n x).c.chreq = x.c.chreq ∨
      (endb i n x).c.chreq ≠ 0x80) ∧
    (n.t.staIn = false → (endb i n x).c.tags.srv = x.c.tags.srv) := by
  unfold endb
  dsimp only
  split
  · refine ⟨⟨rfl, rfl, rfl, rfl, rfl, rfl, rfl, rfl, rfl, rfl, rfl, rfl⟩, rfl, .inl rfl, fun h => ?_⟩
    simp [h]
  · split
    · split
      · refine ⟨⟨rfl, rfl, rfl, rfl, rfl, rfl, rfl, rfl, rfl, rfl, rfl, rfl⟩, rfl,
          .inr (by decide : (0x40#8) ≠ 0x80), fun h => ?_⟩
        simp [h, dropSel]
      · refine ⟨⟨rfl, rfl, rfl, rfl, rfl, rfl, rfl, rfl, rfl, rfl, rfl, rfl⟩, rfl, .inl rfl,
          fun h => ?_⟩
        simp [h, dropSel]
    · split
      · rename_i hst
        refine ⟨⟨rfl, rfl, rfl, rfl, rfl, rfl, rfl, rfl, rfl, rfl, rfl, rfl⟩, rfl, ?_,
          fun h => ?_⟩
        · dsimp only
          split
          · exact .inr (by decide : (0x40#8) ≠ 0x80)
          · split
            · exact .inr (by decide : (0x08#8) ≠ 0x80)
            · exact .inl rfl
        · rw [h] at hst; contradiction
      · refine ⟨⟨rfl, rfl, rfl, rfl, rfl, rfl, rfl, rfl, rfl, rfl, rfl, rfl⟩, rfl, .inl rfl,
          fun h => ?_⟩
        simp [h]

theorem posEnd_same (i : Nat) (n : In) (x : X) : Same x.c (posEnd i n x).c ∧
    ((posEnd i n x).c.chpos = x.c.chpos ∨ (posEnd i n x).c.chpos = 0) ∧
    ((posEnd i n x).c.chreq = x.c.chreq ∨ (posEnd i n x).c.chreq ≠ 0x80) ∧
    (n.t.staIn = false → (posEnd i n x).c.tags.srv = x.c.tags.srv) := by
  unfold posEnd
  split
  · have key : ∀ y : X, Same x.c y.c ∧ y.c.chpos = x.c.chpos ∧
        (y.c.chreq = x.c.chreq ∨ y.c.chreq ≠ 0x80) ∧
        (n.t.staIn = false → y.c.tags.srv = x.c.tags.srv) →
        Same x.c (endLast y).c ∧
        ((endLast y).c.chpos = x.c.chpos ∨
         (endLast y).c.chpos = 0) ∧
        ((endLast y).c.chreq = x.c.chreq ∨
         (endLast y).c.chreq ≠ 0x80) ∧
        (n.t.staIn = false → (endLast y).c.tags.srv = x.c.tags.srv) := by
      intro y h
      unfold endLast
      split
      · exact ⟨h.1.trans ⟨rfl, rfl, rfl, rfl, rfl, rfl, rfl, rfl, rfl, rfl, rfl, rfl⟩, .inr rfl,
          h.2.2.1, h.2.2.2⟩
      · exact ⟨h.1, .inl h.2.1, h.2.2.1, h.2.2.2⟩
    apply key
    split
    · split
      · exact ⟨⟨rfl, rfl, rfl, rfl, rfl, rfl, rfl, rfl, rfl, rfl, rfl, rfl⟩, rfl, .inl rfl,
          fun _ => rfl⟩
      · exact endb_same i n { x with g := { x.g with dtc1 := false } }
      · exact ⟨.rfl' _, rfl, .inl rfl, fun _ => rfl⟩
    · exact ⟨.rfl' _, rfl, .inl rfl, fun _ => rfl⟩
  · exact ⟨.rfl' _, .inl rfl, .inl rfl, fun _ => rfl⟩

theorem at04 (i : Nat) (n : In) (x : X) (h : x.c.chpos = 0x04) :
    (positions i n x).c = (posEnd i n x).c := by
  unfold positions
  have e : posWf i (posRst (posSel i n (posCcw2 i (posCcw1 i (posUa (posLs x)))))) = x := by
    simp [posLs, posUa, posCcw1, posCcw2, posSel, posRst, posWf, h]
  rw [e]
  rcases (posEnd_same i n x).2.1 with e | e
  · rw [h] at e; simp [posCmp, posIrq, e]
  · simp [posCmp, posIrq, e]

/-! ### Automatic functions -/

theorem cToB_ok {n : In} {c : Chan} {ls : W} (v : CInv ls false c) (h0 : c.chpos = 0) :
    CInv ls false (cToB n c) ∧ pend ls false (cToB n c) = pend ls false c ∧
      (cToB n c).chpos = 0 ∧ (cToB n c).tags = c.tags := by
  unfold cToB
  split
  · rename_i h
    have hb : c.bFull = false := by
      cases hb : c.bFull
      · rfl
      · rw [hb] at h; simp at h
    refine ⟨⟨v.op, v.cd, v.rst, v.req, v.don, ?_, ?_, v.ahd⟩, ?_, h0, rfl⟩
    · intro hc; rw [h0] at hc; contradiction
    · intro _ k hk hm
      simp at hm
    · unfold pend back
      simp only [hb, if_true, marked_zero, List.append_nil, Bool.false_eq_true, if_false]
  · exact ⟨v, rfl, h0, rfl⟩

theorem bToC_id {n : In} {c : Chan} (h : c.op = 4 ∨ c.op = 6) : bToC n c = c := by
  unfold bToC
  rcases h with h | h <;> rw [h] <;> simp

theorem lsAsk_ok {i : Nat} {x : X} {ls : W} (v : CInv ls false x.c) :
    CInv ls false (lsAsk i x).c ∧ pend ls false (lsAsk i x).c = pend ls false x.c ∧
      (lsAsk i x).c.tags = x.c.tags := by
  have hop1 : x.c.op ≠ 1 := by rcases v.op with h | h <;> rw [h] <;> decide
  unfold lsAsk
  split
  · rename_i h
    dsimp only
    split
    · rename_i h2
      rw [if_neg (fun hh => hop1 hh.1)]
      refine ⟨⟨v.op, v.cd, ?_, v.req, (fun e => nomatch e), fun _ => .inl ⟨h2.2.1, h2.2.2, rfl⟩,
        v.ord, v.ahd⟩, ?_, rfl⟩
      · intro hc; exact absurd hc (by show ¬ ((0x200#16) = 0x10); decide)
      · unfold pend back
        simp only [h2.2.2, Bool.false_and, Bool.false_eq_true, if_false]
    · rw [if_neg (fun hh => hop1 hh.1)]
      exact ⟨v, rfl, rfl⟩
  · exact ⟨v, rfl, rfl⟩

theorem gone_ok {n : In} {c : Chan} {ls : W} (v : CInv ls false c) :
    CInv ls false (gone n c) ∧ pend ls false (gone n c) = pend ls false c ∧
      (gone n c).tags.srv = c.tags.srv := by
  unfold gone
  split
  · exact ⟨v, rfl, rfl⟩
  · refine ⟨⟨v.op, v.cd, v.rst, v.req, v.don, v.lsr, fun h => v.ord ?_, v.ahd⟩, rfl, rfl⟩
    simp at h; exact h.1

theorem ask_ok {n : In} {c : Chan} {ls : W} (v : CInv ls false c) :
    CInv ls false (ask n c) ∧ pend ls false (ask n c) = pend ls false c ∧
      (ask n c).tags = c.tags := by
  have hop1 : c.op ≠ 1 := by rcases v.op with h | h <;> rw [h] <;> decide
  unfold ask
  dsimp only
  split
  · rename_i h
    rw [if_neg (fun hh => hop1 hh.2.2.2.2.1)]
    refine ⟨⟨v.op, v.cd, ?_, fun _ => h.1, v.don, v.lsr, v.ord, v.ahd⟩, rfl, rfl⟩
    intro hc
    have hc' : c.chpos = 0x10 := hc
    rw [h.2.2.1] at hc'; contradiction
  · rw [if_neg (fun hh => hop1 hh.2.2.2.2.1)]
    exact ⟨v, rfl, rfl⟩

theorem ending_ok {n : In} {c : Chan} {ls : W} (v : CInv ls false c) :
    CInv ls false (ending n c) ∧ pend ls false (ending n c) = pend ls false c ∧
      (ending n c).tags = c.tags := by
  have hop1 : c.op ≠ 1 := by rcases v.op with h | h <;> rw [h] <;> decide
  unfold ending
  split
  · simp only [if_neg hop1]
    split
    · rename_i h
      have hcc : c.cci = 0 := by
        cases hf : c.cFull <;> simp [hf] at h
        exact h.1.2
      have hcf : c.cFull = false := by
        cases hf : c.cFull <;> simp [hf] at h
        rfl
      refine ⟨⟨v.op, v.cd, ?_, fun e => absurd e (by show ¬ ((0x10#8) = 0x80); decide), v.don, v.lsr,
        fun _ => ?_, v.ahd⟩, ?_, rfl⟩
      · intro hc
        exact ⟨(v.rst hc).1, (by decide : (0x10#8) ≠ 0x80)⟩
      · exact v.ord hcf
      · unfold pend back
        simp only [hcc, marked_zero]
    · refine ⟨⟨v.op, v.cd, v.rst, v.req, v.don, v.lsr, fun h => v.ord ?_, v.ahd⟩, rfl, rfl⟩
      simp at h; exact h.1
  · exact ⟨v, rfl, rfl⟩

theorem auto_ok {i : Nat} {n : In} {x : X} {ls : W} (v : CInv ls false x.c) (h0 : x.c.chpos = 0) :
    CInv ls false (auto i n x).c ∧ pend ls false (auto i n x).c = pend ls false x.c ∧
      (auto i n x).c.tags.srv = x.c.tags.srv := by
  unfold auto
  dsimp only
  obtain ⟨a1, a2, a3, a4⟩ := cToB_ok (n := n) v h0
  rw [bToC_id a1.op]
  obtain ⟨b1, b2, b3⟩ := lsAsk_ok (i := i) (x := { x with c := cToB n x.c }) a1
  obtain ⟨c1, c2, c3⟩ := gone_ok (n := n) b1
  obtain ⟨d1, d2, d3⟩ := ask_ok (n := n) c1
  obtain ⟨e1, e2, e3⟩ := ending_ok (n := n) d1
  refine ⟨e1, e2.trans (d2.trans (c2.trans (b2.trans a2))), ?_⟩
  rw [e3, d3, c3, b3]
  show (cToB n x.c).tags.srv = _
  rw [a4]

/-- The middle part of a cycle. -/
theorem mid_ok {i : Nat} {n : In} {c : Chan} {gw : Glob} {ls : W} {d : Bool} (v : CInv ls d c)
    (hr : Reading c) (hl : gw.last = true → c.chpos = 0x10 → d = true) :
    Keeps n ls d (d && !gw.last) c
      (if c.chpos ≠ 0 then positions i n { c := c, g := gw }
       else if c.polling then poll i n { c := c, g := gw } else auto i n { c := c, g := gw }).c := by
  have hd : c.chpos ≠ 0x10 → d = false := fun h => by
    cases hd : d with
    | false => rfl
    | true => exact absurd (v.don hd) h
  rcases hr.2.2.2 with h | h | h | h
  · have hd := hd (by rw [h]; decide)
    subst hd
    rw [if_neg (by rw [h]; simp), hr.2.2.1, if_neg (by decide)]
    obtain ⟨a, b, e⟩ := auto_ok (i := i) (n := n) (x := { c := c, g := gw }) v h
    exact ⟨a, b, fun _ _ hs => e.trans hs⟩
  · have hd := hd (by rw [h]; decide)
    subst hd
    rw [if_pos (by rw [h]; decide), at200 i n _ h]
    dsimp only
    split
    · exact Same.keeps (d' := false) ⟨rfl, rfl, rfl, rfl, rfl, rfl, rfl, rfl, rfl, rfl, rfl, rfl⟩ v
        (.inr rfl) (.inl rfl) rfl (fun e => nomatch e) (fun _ _ e => e)
    · exact Same.keeps (d' := false) (.rfl' _) v (.inl rfl) (.inl rfl) rfl (fun e => nomatch e)
        (fun _ _ e => e)
  · rw [if_pos (by rw [h]; decide), at10 i n _ h]
    cases hg : gw.last with
    | false =>
      have e : posRst { c := c, g := gw } = { c := c, g := gw } := by
        unfold posRst; dsimp only; rw [hg, if_neg (fun hh => nomatch hh.2)]
      rw [e, Bool.not_false, Bool.and_true]
      exact ⟨v, rfl, fun _ _ e => e⟩
    | true =>
      have hdt := hl hg h
      subst hdt
      have hv := v.rst h
      unfold posRst
      rw [if_pos ⟨h, hg⟩]
      refine ⟨⟨v.op, v.cd, ?_, ?_, (fun e => nomatch e), ?_, v.ord, v.ahd⟩, ?_, fun _ _ e => e⟩
      · intro hc; exact absurd hc (by show ¬ ((0#16) = 0x10); decide)
      · intro hc
        have hc' : (if c.c1 = true then 0x08 else c.chreq) = 0x80 := hc
        split at hc'
        · contradiction
        · exact absurd hc' hv.2
      · intro hc; exact absurd hc (by show ¬ ((0#16) = 0x200); decide)
      · show (if (false && _) = true then _ else _) ++ _ ++ _ = (if (c.lsFull && !true) = true then _ else _) ++ _ ++ _
        rw [Bool.false_and, Bool.not_true, Bool.and_false]
        rfl
  · have hd := hd (by rw [h]; decide)
    subst hd
    rw [if_pos (by rw [h]; decide), at04 i n _ h]
    obtain ⟨a, b, e, f⟩ := posEnd_same i n { c := c, g := gw }
    exact Same.keeps (d' := false) a v b e rfl (fun e => nomatch e) (fun _ hs e => (f hs).trans e)

theorem tagsOnly {c : Chan} {ls : W} {d : Bool} (v : CInv ls d c) (t : Verif.Bus.Tags) :
    CInv ls d { c with tags := t } ∧ pend ls d { c with tags := t } = pend ls d c :=
  ⟨⟨v.op, v.cd, v.rst, v.req, v.don, v.lsr, v.ord, v.ahd⟩, rfl⟩

/-- A whole cycle. -/
theorem cycled_ok {i : Nat} {n : In} {ga gw : Glob} {c : Chan} {ls : W} {d : Bool}
    (v : CInv ls d c) (hr : Reading (began i ga c)) (hs : n.t.srv = c.tags.srv)
    (hx : (n.t.srvIn && n.t.staIn) = false)
    (hl : gw.last = true → (began i ga c).chpos = 0x10 → d = true) :
    CInv ls (d && !gw.last) (cycled i n ga gw c) ∧
      pend ls (d && !gw.last) (cycled i n ga gw c) =
        pend ls d c ++ (if accepts n c (cycled i n ga gw c) then [n.data] else []) := by
  obtain ⟨b1, b2, b3⟩ := began_ok v hr
  obtain ⟨m1, m2, m3⟩ := mid_ok (i := i) (n := n) (gw := gw) b1 hr hl
  have hw : cycled i n ga gw c = serve n (dropCmd n (dropSrv i n
      (if (began i ga c).chpos ≠ 0 then positions i n { c := began i ga c, g := gw }
       else if (began i ga c).polling then poll i n { c := began i ga c, g := gw }
       else auto i n { c := began i ga c, g := gw })).c) := rfl
  rw [hw]
  unfold accepts
  rw [← b2, ← m2, ← hs]
  generalize (if (began i ga c).chpos ≠ 0 then positions i n { c := began i ga c, g := gw }
       else if (began i ga c).polling then poll i n { c := began i ga c, g := gw }
       else auto i n { c := began i ga c, g := gw }) = y at m1 m2 m3 ⊢
  rw [b3, ← hs] at m3
  have hz : ∀ c' : Chan, (n.t.srv = false → c'.tags.srv = y.c.tags.srv) →
      n.t.srvIn = true → n.t.srv = false → c'.tags.srv = false := by
    intro c' hc h1 h2
    rw [hc h2]
    refine m3 h1 ?_ h2
    rw [h1] at hx
    simpa using hx
  have d1 : ∃ t, (dropSrv i n y).c = { y.c with tags := t } ∧ (n.t.srv = false → t = y.c.tags) := by
    unfold dropSrv
    split
    · rename_i h
      refine ⟨_, rfl, fun e => ?_⟩
      rw [e] at h; simp at h
    · exact ⟨y.c.tags, rfl, fun _ => rfl⟩
  obtain ⟨t, ht, ht2⟩ := d1
  have d2 : ∃ t', dropCmd n (dropSrv i n y).c = { y.c with tags := t' } ∧
      (n.t.srv = false → t'.srv = y.c.tags.srv) := by
    unfold dropCmd
    rw [ht]
    split
    · refine ⟨_, rfl, fun e => ?_⟩
      show t.srv = _
      rw [ht2 e]
    · exact ⟨t, rfl, fun e => by rw [ht2 e]⟩
  obtain ⟨t', ht', ht2'⟩ := d2
  generalize dropCmd n (dropSrv i n y).c = z at ht' ⊢
  subst ht'
  obtain ⟨k1, k2⟩ := tagsOnly m1 t'
  obtain ⟨s1, s2, _⟩ := serve_ok (n := n) k1 (hz _ ht2')
  exact ⟨s1, s2.trans (by rw [k2])⟩

end Verif.Sel50
