import Verif.Sel50.WriteInv

/-! # The invariant of writing along a run -/

namespace Verif.Sel50

section
variable {p : Nat} {ls : W} {given : List W} {sent : List B} {got over : Bool}

/-- What keeps the end of the transfer. -/
def Kept (c c' : Chan) : Prop := c'.eor = c.eor ∧ c'.gp = c.gp

theorem Kept.trans {a b c : Chan} (h : Kept a b) (g : Kept b c) : Kept a c :=
  ⟨g.1.trans h.1, g.2.trans h.2⟩

theorem auto_kept (i : Nat) (n : In) (x : X) : Kept x.c (auto i n x).c := by
  have f1 : ∀ c, Kept c (cToB n c) := fun c => by unfold cToB; split <;> exact ⟨rfl, rfl⟩
  have f2 : ∀ c, Kept c (bToC n c) := fun c => by unfold bToC; split <;> exact ⟨rfl, rfl⟩
  have f3 : ∀ x : X, Kept x.c (lsAsk i x).c := fun c => by
    unfold lsAsk; dsimp only; repeat' split
    all_goals exact ⟨rfl, rfl⟩
  have f4 : ∀ c, Kept c (gone n c) := fun c => by unfold gone; split <;> exact ⟨rfl, rfl⟩
  have f5 : ∀ c, Kept c (ask n c) := fun c => by
    unfold ask; dsimp only; repeat' split
    all_goals exact ⟨rfl, rfl⟩
  have f6 : ∀ c, Kept c (ending n c) := fun c => by
    unfold ending; dsimp only; repeat' split
    all_goals exact ⟨rfl, rfl⟩
  unfold auto
  dsimp only
  exact ((f1 _).trans (f2 _)).trans ((f3 { x with c := bToC n (cToB n x.c) }).trans
    (((f4 _).trans (f5 _)).trans (f6 _)))

/-- Routine `.WFCH` without its end. -/
def wfWork (i : Nat) (x : X) : X :=
  if x.g.dtc2 then
    match x.c.chclk with
    | 0 => { x with c := { x.c with chclk := 1, eor := false } }
    | 1 => { x with c := { x.c with chclk := 2 } }
    | 2 => if x.c.bFull = false then
             (if x.g.ch = i then { x with c := { x.c with bReg := x.g.aob, bFull := true } }
              else { x with spill := some x.g.aob })
           else { x with c := { x.c with lsFull := true } }
    | _ => x
  else x

theorem wfWork_stop (i : Nat) (x : X) : (wfWork i x).c.ifStop = x.c.ifStop := by
  unfold wfWork
  repeat' split
  all_goals rfl

theorem auto_stop (i : Nat) (n : In) (x : X) : (auto i n x).c.ifStop = x.c.ifStop := by
  have f1 : ∀ c, (cToB n c).ifStop = c.ifStop := fun c => by unfold cToB; split <;> rfl
  have f2 : ∀ c, (bToC n c).ifStop = c.ifStop := fun c => by unfold bToC; split <;> rfl
  have f3 : ∀ x : X, (lsAsk i x).c.ifStop = x.c.ifStop := fun c => by
    unfold lsAsk; dsimp only; repeat' split
    all_goals rfl
  have f4 : ∀ c, (gone n c).ifStop = c.ifStop := fun c => by unfold gone; split <;> rfl
  have f5 : ∀ c, (ask n c).ifStop = c.ifStop := fun c => by
    unfold ask; dsimp only; repeat' split
    all_goals rfl
  have f6 : ∀ c, (ending n c).ifStop = c.ifStop := fun c => by
    unfold ending; dsimp only; repeat' split
    all_goals rfl
  unfold auto
  dsimp only
  rw [f6, f5, f4, f3]
  dsimp only
  rw [f2, f1]

theorem posWf_eq (i : Nat) (x : X) (h : x.c.chpos = 8) : posWf i x = (if (wfWork i x).g.last then
      { wfWork i x with c := { (wfWork i x).c with
          chclk := 0, chpos := 0, iostat := (wfWork i x).c.iostat &&& 0xef } } else wfWork i x) := by
  unfold posWf; rw [if_pos h]; rfl

theorem wfWork_w {i : Nat} {c : Chan} {g : Glob} (v : CW p c ls given sent got over)
    (h8 : c.chpos = 8) (hgv : gives c g = true → got = false ∧ g.ch = i) :
    CW p (wfWork i { c := c, g := g }).c (if gives c g && c.bFull then g.aob else ls)
      (given ++ (if gives c g then [g.aob] else [])) sent (got || gives c g) over ∧
    (wfWork i { c := c, g := g }).c.chpos = 8 ∧ (wfWork i { c := c, g := g }).g = g ∧
    (wfWork i { c := c, g := g }).c.tags = c.tags ∧ (wfWork i { c := c, g := g }).c.gp = c.gp ∧
    ((wfWork i { c := c, g := g }).c.eor = true → c.eor = true) ∧
    (c.chclk ≠ 0 → (wfWork i { c := c, g := g }).c.chclk ≠ 0 ∧
      (wfWork i { c := c, g := g }).c.eor = c.eor) := by
  have hno : gives c g = false → ∀ c', c'.k = c.k → CW p c' (if gives c g && c.bFull then g.aob else ls)
      (given ++ (if gives c g then [g.aob] else [])) sent (got || gives c g) over := by
    intro h c' hc
    rw [h]
    show WInv p c'.k _ _ _ _ _
    rw [hc]; simpa using v
  by_cases hd : g.dtc2 = true
  · by_cases h0 : c.chclk = 0
    · have e : wfWork i { c := c, g := g } = { c := { c with chclk := 1, eor := false }, g := g } := by
        unfold wfWork; simp [hd, h0]
      have hg : gives c g = false := by unfold gives; rw [h0]; simp
      rw [e, hg]
      refine ⟨?_, h8, rfl, rfl, rfl, (fun h => nomatch h), fun h => absurd h0 h⟩
      have := WInv.clock v (C := 1) (e := false) h8 (by show c.chclk ≠ 2; omega) (fun h => nomatch h)
      show WInv p _ ls (given ++ []) sent (got || false) over
      rw [List.append_nil, Bool.or_false]; exact this
    by_cases h1 : c.chclk = 1
    · have e : wfWork i { c := c, g := g } = { c := { c with chclk := 2 }, g := g } := by
        unfold wfWork; simp [hd, h1]
      have hg : gives c g = false := by unfold gives; rw [h1]; simp
      rw [e, hg]
      refine ⟨?_, h8, rfl, rfl, rfl, fun h => h, fun _ => ⟨(by decide : (2 : Nat) ≠ 0), rfl⟩⟩
      have := WInv.clock v (C := 2) (e := c.eor) h8 (by show c.chclk ≠ 2; omega) (fun h => h)
      show WInv p _ ls (given ++ []) sent (got || false) over
      rw [List.append_nil, Bool.or_false]; exact this
    by_cases h2 : c.chclk = 2
    · have hg : gives c g = true := by unfold gives; rw [h2, h8, hd]; rfl
      obtain ⟨hgo, hch⟩ := hgv hg
      by_cases hb : c.bFull = true
      · have e : wfWork i { c := c, g := g } = { c := { c with lsFull := true }, g := g } := by
          unfold wfWork; simp [hd, h2, hb]
        rw [e, hg, if_pos (show (true && c.bFull) = true by rw [hb]; rfl)]
        refine ⟨?_, h8, rfl, rfl, rfl, fun h => h, fun h => ⟨h, rfl⟩⟩
        have := WInv.give v h8 h2 hgo g.aob (k' := { c.k with lf := true }) (ls' := g.aob)
          (.inr ⟨hb, rfl, rfl⟩)
        show WInv p _ g.aob (given ++ [g.aob]) sent (got || true) over
        rw [Bool.or_true]; exact this
      · have hb' : c.bFull = false := by simpa using hb
        have e : wfWork i { c := c, g := g } =
            { c := { c with bReg := g.aob, bFull := true }, g := g } := by
          unfold wfWork; simp [hd, h2, hb', hch]
        rw [e, hg, hb']
        refine ⟨?_, h8, rfl, rfl, rfl, fun h => h, fun h => ⟨h, rfl⟩⟩
        have := WInv.give v h8 h2 hgo g.aob (k' := { c.k with br := g.aob, bf := true }) (ls' := ls)
          (.inl ⟨hb', rfl, rfl⟩)
        show WInv p _ ls (given ++ [g.aob]) sent (got || true) over
        rw [Bool.or_true]; exact this
    · have e : wfWork i { c := c, g := g } = { c := c, g := g } := by
        unfold wfWork; dsimp only; rw [if_pos hd]; split <;> first | rfl | contradiction
      have hg : gives c g = false := by unfold gives; simp [h2]
      rw [e]
      exact ⟨hno hg c rfl, h8, rfl, rfl, rfl, fun h => h, fun h => ⟨h, rfl⟩⟩
  · have e : wfWork i { c := c, g := g } = { c := c, g := g } := by
      unfold wfWork; rw [if_neg hd]
    have hg : gives c g = false := by unfold gives; simp [hd]
    rw [e]
    exact ⟨hno hg c rfl, h8, rfl, rfl, rfl, fun h => h, fun h => ⟨h, rfl⟩⟩

theorem not_gives {c : Chan} (g : Glob) (h : c.chpos ≠ 8) : gives c g = false := by
  unfold gives
  have : (c.chpos == 8) = false := by simpa using h
  rw [this]; simp

theorem mid_w {i : Nat} {n : In} {c : Chan} {g : Glob} (v : CW p c ls given sent got over)
    (hw : Writing c) (ho : n.t.oprIn = false → over = true) (hs : n.t.staIn = true → over = true)
    (hgv : gives c g = true → got = false ∧ g.ch = i)
    (hl8 : c.chpos = 8 → g.last = true → got = true ∨ gives c g = true)
    (hl4 : c.chpos = 0x400 → g.last = true → g.aob = ls) :
    ∃ y : X, y = (if c.chpos ≠ 0 then positions i n { c := c, g := g }
       else if c.polling then poll i n { c := c, g := g } else auto i n { c := c, g := g }) ∧
      CW p y.c (if gives c g && c.bFull then g.aob else ls) (given ++ (if gives c g then [g.aob] else []))
        sent ((got || gives c g) && !g.last) over ∧
      (n.t.staIn = false → y.c.tags.srv = c.tags.srv) ∧
      (y.c.chpos = 8 → c.chpos = 8 ∧ g.last = false) ∧
      (c.chpos = 8 → c.chclk ≠ 0 → g.last = false → y.c.chpos = 8 ∧ y.c.chclk ≠ 0) ∧
      (y.c.eor = true → c.eor = true) ∧ y.c.gp = c.gp ∧
      (y.c.eor = c.eor ∨ (c.chpos = 8 ∧ c.chclk = 0)) ∧ y.c.ifStop = c.ifStop := by
  refine ⟨_, rfl, ?_⟩
  have plain : c.chpos ≠ 8 → got = false ∧ ∀ c', CW p c' ls given sent got over →
      CW p c' (if gives c g && c.bFull then g.aob else ls) (given ++ (if gives c g then [g.aob] else []))
        sent ((got || gives c g) && !g.last) over := by
    intro h8
    have hg : got = false := by
      cases hg : got with
      | false => rfl
      | true => exact absurd (v.g8 hg).1 h8
    refine ⟨hg, fun c' v' => ?_⟩
    rw [not_gives g h8, hg]
    rw [hg] at v'
    simpa using v'
  rcases hw.2.2.2 with h | h | h | h
  · have h8 : c.chpos ≠ 8 := by rw [h]; decide
    rw [if_neg (by rw [h]; simp), hw.2.2.1, if_neg (by decide)]
    obtain ⟨a1, a2, a3⟩ := auto_w (i := i) (n := n) (x := { c := c, g := g }) v h ho hs
    obtain ⟨b1, b2⟩ := auto_kept i n { c := c, g := g }
    refine ⟨(plain h8).2 _ a1, fun _ => a2, ?_, fun h' => absurd h' h8, fun h' => b1 ▸ h', b2,
      .inl b1, auto_stop i n { c := c, g := g }⟩
    intro h'
    rcases a3 with a3 | a3 <;> rw [a3] at h' <;> exact absurd h' (by decide)
  · have h8 : c.chpos ≠ 8 := by rw [h]; decide
    rw [if_pos (by rw [h]; decide), at400 i n { c := c, g := g } h]
    dsimp only
    split
    · rename_i hl
      have ea := hl4 h hl
      refine ⟨(plain h8).2 _ ?_, fun _ => rfl, fun h' => absurd h' (by decide : (0#16) ≠ 8),
        fun h' => absurd h' h8, fun h' => h', rfl, .inl rfl, rfl⟩
      show WInv p _ _ _ _ _ _
      rw [ea]
      exact WInv.lsToB v h
    · exact ⟨(plain h8).2 _ v, fun _ => rfl, fun h' => absurd h' h8, fun h' => absurd h' h8,
        fun h' => h', rfl, .inl rfl, rfl⟩
  · rw [if_pos (by rw [h]; decide), at08 i n { c := c, g := g } h, posWf_eq i { c := c, g := g } h]
    obtain ⟨a1, a2, a3, a4, a5, a6, a7⟩ := wfWork_w (i := i) v h hgv
    have a8 := wfWork_stop i { c := c, g := g }
    generalize wfWork i { c := c, g := g } = y at a1 a2 a3 a4 a5 a6 a7 a8 ⊢
    have a9 : y.c.eor = c.eor ∨ (c.chpos = 8 ∧ c.chclk = 0) := by
      by_cases hk : c.chclk = 0
      · exact .inr ⟨h, hk⟩
      · exact .inl (a7 hk).2
    rw [a3]
    cases hl : g.last with
    | true =>
      rw [if_pos rfl]
      refine ⟨?_, fun _ => congrArg (fun t => t.srv) a4, fun h' => absurd h' (by decide : (0#16) ≠ 8),
        fun _ _ h' => absurd h' (by decide), a6, a5, a9, a8⟩
      have hgt : (got || gives c g) = true := by
        rcases hl8 h hl with e | e <;> rw [e] <;> simp
      rw [hgt] at a1 ⊢
      exact WInv.wfEnd a1 a2 rfl
    | false =>
      rw [if_neg (by decide)]
      refine ⟨?_, fun _ => congrArg (fun t => t.srv) a4, fun _ => ⟨h, rfl⟩, fun _ hk _ => ⟨a2, (a7 hk).1⟩,
        a6, a5, a9, a8⟩
      simpa using a1
  · have h8 : c.chpos ≠ 8 := by rw [h]; decide
    obtain ⟨hg, pl⟩ := plain h8
    rw [if_pos (by rw [h]; decide), at04 i n { c := c, g := g } h]
    obtain ⟨b1, b2, b3, b4⟩ := posEnd_same i n { c := c, g := g }
    have b5 := posEnd_eor i n { c := c, g := g }
    generalize posEnd i n { c := c, g := g } = y at b1 b2 b3 b4 b5 ⊢
    have hp8 : y.c.chpos ≠ 8 := by
      rcases b2 with e | e
      · rw [e]; exact h8
      · rw [e]; decide
    refine ⟨pl _ ?_, b4, fun h' => absurd h' hp8, fun h' => absurd h' h8, fun h' => b5 ▸ h', b1.gp,
      .inl b5, b1.ifStop⟩
    have e : y.c.k = { c.k with pos := y.c.chpos, req := y.c.chreq, clk := y.c.chclk } := by
      unfold Chan.k
      rw [b1.op, b1.cd, b1.ifStop, b5, b1.cFull, b1.bFull, b1.lsFull, b1.gp, b1.cReg, b1.bReg]
    show WInv p y.c.k _ _ _ _ _
    rw [e]
    refine WInv.move v hg h8 (fun h' => absurd h' hp8) ?_ ?_
    · intro h'
      rcases b2 with e | e
      · exact e.symm.trans h'
      · rw [e] at h'; exact absurd h' (by decide)
    · rcases b3 with e | e
      · exact .inr ⟨e, hp8⟩
      · exact .inl e

theorem writeByte_k {c : Chan} (hf : c.cFull = true) (hcd : c.cd = false) :
    (writeByte c).k = c.k.byte ∧ (writeByte c).busOut = getB c.cReg (byteNo c.gp) ∧
      (writeByte c).busPar = oddPar (getB c.cReg (byteNo c.gp)) ∧ (writeByte c).tags.srv = true := by
  unfold writeByte
  rw [if_neg (by rw [hf]; decide)]
  dsimp only [toBus]
  split
  · rename_i h
    split
    · rename_i h'
      have hk : c.k.byte = { c.k with gp := gpNext c.gp, cf := false, stop := true } := by
        unfold K.byte
        rw [if_pos (show (c.k.eor && !c.k.bf && !c.k.lf) = true from h),
          if_pos (show atLast (gpNext c.k.gp) = true from h')]; rfl
      rw [if_neg (show ¬ c.cd = true by rw [hcd]; decide)]
      exact ⟨hk.symm, rfl, rfl, rfl⟩
    · rename_i h'
      have hk : c.k.byte = { c.k with gp := gpNext c.gp } := by
        unfold K.byte
        rw [if_pos (show (c.k.eor && !c.k.bf && !c.k.lf) = true from h),
          if_neg (show ¬ atLast (gpNext c.k.gp) = true from h')]; rfl
      exact ⟨hk.symm, rfl, rfl, rfl⟩
  · rename_i h
    split
    · rename_i h'
      have hk : c.k.byte = { c.k with gp := gpNext c.gp, cf := false } := by
        unfold K.byte
        rw [if_neg (show ¬ (c.k.eor && !c.k.bf && !c.k.lf) = true from h),
          if_pos (show gpNext c.k.gp &&& 0x60 = 0 from h')]; rfl
      exact ⟨hk.symm, rfl, rfl, rfl⟩
    · rename_i h'
      have hk : c.k.byte = { c.k with gp := gpNext c.gp } := by
        unfold K.byte
        rw [if_neg (show ¬ (c.k.eor && !c.k.bf && !c.k.lf) = true from h),
          if_neg (show ¬ gpNext c.k.gp &&& 0x60 = 0 from h')]; rfl
      exact ⟨hk.symm, rfl, rfl, rfl⟩

theorem pci_k (c : Chan) : ∃ r, (pci c).k = { c.k with req := r } ∧ (r = c.chreq ∨ r ≠ 0x80) ∧
    (pci c).busOut = c.busOut ∧ (pci c).busPar = c.busPar ∧ (pci c).tags = c.tags := by
  unfold pci
  split
  · by_cases h : c.chreq = 0 ∧ c.c1 = false
    · exact ⟨0x10, by rw [if_pos h]; rfl, .inr (by decide), rfl, rfl, rfl⟩
    · exact ⟨c.chreq, by rw [if_neg h]; rfl, .inl rfl, rfl, rfl, rfl⟩
  · exact ⟨c.chreq, rfl, .inl rfl, rfl, rfl, rfl⟩

/-- The answer to a request for service. -/
theorem serve_w {n : In} {c : Chan} (v : CW p c ls given sent got over)
    (hov : n.t.srvIn = true → n.t.oprIn = true → over = false)
    (hw : n.t.srvIn = true → c.eor = true → c.chpos = 8 → got = true)
    (hsrv : n.t.srv = c.tags.srv ∨ n.t.srvIn = false) :
    CW p (serve n c) ls given
      (sent ++ (if n.t.srvIn && n.t.oprIn && !n.t.srv && (serve n c).tags.srv then [(serve n c).busOut]
        else [])) got over ∧
    (serve n c).eor = c.eor ∧ last (serve n c).gp = last c.gp ∧ (serve n c).chpos = c.chpos ∧
    (serve n c).chclk = c.chclk ∧ ((n.t.srvIn && n.t.oprIn && !n.t.srv && (serve n c).tags.srv) = true →
      c.ifStop = false ∧ (serve n c).busPar = oddPar (serve n c).busOut) := by
  have hop : c.op = 1 := v.op
  have hcd : c.cd = false := v.cd
  by_cases hg : (n.t.srvIn && n.t.oprIn && !n.t.srv) = true
  · have hi : n.t.srvIn = true ∧ n.t.oprIn = true ∧ n.t.srv = false := by
      simpa [and_assoc] using hg
    have hns : c.tags.srv = false := by
      rcases hsrv with h | h
      · rw [← h]; exact hi.2.2
      · rw [hi.1] at h; contradiction
    have none : ∀ c' : Chan, c'.k = c.k → c'.tags.srv = false → serve n c = c' →
        CW p (serve n c) ls given
      (sent ++ (if n.t.srvIn && n.t.oprIn && !n.t.srv && (serve n c).tags.srv then [(serve n c).busOut]
        else [])) got over ∧
    (serve n c).eor = c.eor ∧ last (serve n c).gp = last c.gp ∧ (serve n c).chpos = c.chpos ∧
    (serve n c).chclk = c.chclk ∧ ((n.t.srvIn && n.t.oprIn && !n.t.srv && (serve n c).tags.srv) = true →
      c.ifStop = false ∧ (serve n c).busPar = oddPar (serve n c).busOut) := by
      intro c' hk ht hc
      rw [hc, ht, hg]
      refine ⟨?_, congrArg K.eor hk, by rw [show c'.gp = c.gp from congrArg K.gp hk], congrArg K.pos hk,
        congrArg K.clk hk, ?_⟩
      · show WInv p c'.k _ _ _ _ _
        rw [hk]; simpa using v
      · intro h; simp at h
    by_cases hst : c.ifStop = true
    · refine none { c with
        tags := { c.tags with cmd := true },
        flags := if c.flags &&& 0x2000 = 0 then c.flags ||| 0x40 else c.flags } rfl hns ?_
      unfold serve; rw [if_pos hg, if_pos hst]
    · have hst' : c.ifStop = false := by simpa using hst
      by_cases h1 : c.c1 = false
      · have es : serve n c = pci (writeByte c) := by
          unfold serve; rw [if_pos hg, if_neg hst, if_pos h1, hop]; rfl
        obtain ⟨r, r1, r2, r3, r4, r5⟩ := pci_k (writeByte c)
        cases hf : c.cFull with
        | false =>
          have ew : writeByte c = c := by unfold writeByte; rw [if_pos hf]
          rw [ew] at r1 r2 r3 r4 r5 es
          rw [← es] at r1 r5
          have t1 : (serve n c).tags.srv = false := by rw [r5]; exact hns
          generalize serve n c = z at r1 t1 ⊢
          rw [t1, Bool.and_false]
          refine ⟨?_, congrArg K.eor r1, by rw [show z.gp = c.gp from congrArg K.gp r1], congrArg K.pos r1,
            congrArg K.clk r1, fun h => absurd h (by decide)⟩
          show WInv p z.k _ (_) (sent ++ []) _ _
          rw [r1, List.append_nil]
          rcases r2 with e | e
          · rw [e]; exact v
          · exact v.setReq e
        | true =>
          obtain ⟨w1, w2, w3, w4⟩ := writeByte_k hf hcd
          have vb := v.byte (hov hi.1 hi.2.1) hst' hf (hw hi.1)
          have ke : c.k.byte.eor = c.eor ∧ last c.k.byte.gp = last c.gp ∧ c.k.byte.pos = c.chpos ∧
              c.k.byte.clk = c.chclk := by
            have hn : last (gpNext c.gp) = last c.gp := (pos_next c.gp).2
            have hx : c.k.byte.eor = c.eor ∧ c.k.byte.gp = gpNext c.gp ∧ c.k.byte.pos = c.chpos ∧
              c.k.byte.clk = c.chclk := by
              unfold K.byte
              repeat' split
              all_goals exact ⟨rfl, rfl, rfl, rfl⟩
            rw [hx.2.1]
            exact ⟨hx.1, hn, hx.2.2⟩
          have hq : (writeByte c).chreq = c.k.byte.req := congrArg K.req w1
          rw [← es, w1] at r1
          rw [← es, w2] at r3
          rw [← es, w3] at r4
          rw [← es] at r5
          rw [hq] at r2
          have t1 : (serve n c).tags.srv = true := by rw [r5]; exact w4
          generalize serve n c = z at r1 r3 r4 t1 ⊢
          rw [t1, Bool.and_true, hg, r3, r4]
          refine ⟨?_, ?_, ?_, ?_, ?_, fun _ => ⟨hst', rfl⟩⟩
          · show WInv p z.k _ _ _ _ _
            rw [r1]
            rcases r2 with e | e
            · rw [e]; exact vb
            · exact vb.setReq e
          · exact (congrArg K.eor r1).trans ke.1
          · rw [show z.gp = c.k.byte.gp from congrArg K.gp r1]; exact ke.2.1
          · exact (congrArg K.pos r1).trans ke.2.2.1
          · exact (congrArg K.clk r1).trans ke.2.2.2
      · refine none c rfl hns ?_
        unfold serve; rw [if_pos hg, if_neg hst, if_neg h1]
  · have hg' : (n.t.srvIn && n.t.oprIn && !n.t.srv) = false := by simpa using hg
    have es : serve n c = c := by unfold serve; rw [if_neg hg]
    rw [es, hg']
    refine ⟨?_, rfl, rfl, rfl, rfl, fun h => ?_⟩
    · simpa using v
    · simp at h

end

end Verif.Sel50
