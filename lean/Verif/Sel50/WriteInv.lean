import Verif.Sel50.Write

/-! # The invariant of writing is kept by every part of a cycle -/

namespace Verif.Sel50

section
variable {p : Nat} {k : K} {ls : W} {given : List W} {sent : List B} {got over : Bool}

/-- When the device is done, only what has been sent matters. -/
theorem WInv.ends (v : WInv p k ls given sent got over) {cf bf lf : Bool} {cr : W}
    (hl : lf = true → k.lf = true) :
    WInv p { k with cf := cf, bf := bf, lf := lf, cr := cr } ls given sent got true := by
  refine ⟨v.p4, v.op, v.cd, ?_, ?_, v.g8, ?_, ?_, ?_, ?_, ?_, ?_, v.win, v.dead, v.stp⟩
  · intro h
    obtain ⟨a, b, c⟩ := v.req h
    refine ⟨?_, b, c⟩
    cases hlf : lf with
    | false => rfl
    | true => rw [hl hlf] at a; contradiction
  · intro h g
    have a := v.w8 h g
    show lf = false
    cases hlf : lf with
    | false => rfl
    | true => rw [hl hlf] at a; contradiction
  · intro _ h; exact nomatch h
  · intro _ h; exact nomatch h
  · intro _ h; exact nomatch h
  · intro _ h; exact nomatch h
  · intro _ h; exact nomatch h
  · intro _ h; exact nomatch h

theorem WInv.setOver (v : WInv p k ls given sent got over) (o : Bool) (h : o = false → over = false) :
    WInv p k ls given sent got o := by
  cases o with
  | true => exact v.ends (cf := k.cf) (bf := k.bf) (lf := k.lf) (cr := k.cr) (fun h => h)
  | false => rw [h rfl] at v; exact v

/-- Positions and requests may change in these ways. -/
theorem WInv.move (v : WInv p k ls given sent got over) (hg : got = false) (h8 : k.pos ≠ 8)
    {P : BitVec 16} {R : B} {C : Nat}
    (hP : P = 8 → k.lf = false ∧ k.eor = false) (hP4 : P = 0x400 → k.pos = 0x400)
    (hR : R ≠ 0x80 ∨ (R = k.req ∧ P ≠ 8)) :
    WInv p { k with pos := P, req := R, clk := C } ls given sent got over := by
  subst hg
  refine ⟨v.p4, v.op, v.cd, ?_, fun h _ => (hP h).1, (fun h => nomatch h), fun h => v.p400 (hP4 h),
    v.live, v.st1, v.st2, v.st3, ?_, ?_, v.dead, ?_⟩
  · intro h
    rcases hR with hR | ⟨hR, hP8⟩
    · exact absurd h hR
    · obtain ⟨a, _, c⟩ := v.req (hR ▸ h)
      exact ⟨a, hP8, c⟩
  · intro h1 h2 h3 h4
    exact v.en h1 h2 h3 (fun h => absurd h h8)
  · intro h1 h2
    have := (hP h2).2
    rw [show k.eor = true from h1] at this; contradiction
  · intro h
    obtain ⟨a, _, c⟩ := v.stp h
    refine ⟨a, ?_, c⟩
    intro h'
    have := (hP h').2
    rw [a] at this; contradiction

theorem WInv.setReq (v : WInv p k ls given sent got over) {R : B} (hR : R ≠ 0x80) :
    WInv p { k with req := R } ls given sent got over :=
  ⟨v.p4, v.op, v.cd, fun h => absurd h hR, v.w8, v.g8, v.p400, v.live, v.st1, v.st2, v.st3, v.en,
    v.win, v.dead, v.stp⟩

/-- The B register goes to C. -/
theorem WInv.bToC (v : WInv p k ls given sent got over) (h0 : k.pos = 0) (hc : k.cf = false)
    (hb : k.bf = true) :
    WInv p { k with cr := k.br, bf := false, cf := true } ls given sent got over := by
  have hw : ({ k with cr := k.br, bf := false, cf := true } : K).words ls = k.words ls := by
    unfold K.words; rw [hc, hb]; rfl
  have h8 : k.pos ≠ 8 := by rw [h0]; decide
  refine ⟨v.p4, v.op, v.cd, v.req, v.w8, v.g8, ?_, ?_, ?_, v.st2, (fun _ _ h => nomatch h), ?_, v.win,
    v.dead, v.stp⟩
  · intro h; exact absurd (h0.symm.trans h) (by decide)
  · intro h1 h2; rw [hw]; exact v.live h1 h2
  · intro h1 h2; rw [hw]; exact v.st1 h1 h2
  · intro h1 h2 h3 h4
    obtain ⟨a, b, _⟩ := v.en h1 h2 h3 (fun h => absurd h h8)
    refine ⟨by rw [hw]; exact a, b, ?_⟩
    intro _ _ hl
    show Fits (pos k.gp) k.gp
    rcases v.st3 h1 h2 hc with h | ⟨h, hp⟩
    · rw [h]
      unfold Fits
      omega
    · have hl' : k.lf = false := hl
      have e : (k.words ls).length = 1 := by
        unfold K.words; rw [hc, hb, hl']; rfl
      rw [hp]
      rcases b with b | b
      · omega
      · exact b

/-- The word of local storage goes to B. -/
theorem WInv.lsToB (v : WInv p k ls given sent got over) (h4 : k.pos = 0x400) :
    WInv p { k with clk := 0, pos := 0, br := ls, lf := false, bf := true } ls given sent got over := by
  have h8 : k.pos ≠ 8 := by rw [h4]; decide
  have hg : got = false := by
    cases hg : got with
    | false => rfl
    | true => exact absurd (v.g8 hg).1 h8
  subst hg
  have hw : over = false → ({ k with clk := 0, pos := 0, br := ls, lf := false, bf := true } : K).words ls =
      k.words ls := by
    intro ho
    obtain ⟨a, b⟩ := v.p400 h4 ho
    unfold K.words; rw [a, b]; rfl
  refine ⟨v.p4, v.op, v.cd, ?_, ?_, (fun h => nomatch h), ?_, ?_, ?_, v.st2, ?_, ?_, ?_, v.dead, ?_⟩
  · intro h
    exact ⟨rfl, (by decide : (0#16) ≠ 8), (v.req h).2.2⟩
  · intro _ _; rfl
  · intro h; exact absurd h (by decide : (0#16) ≠ 0x400)
  · intro h1 h2; rw [hw h2]; exact v.live h1 h2
  · intro h1 h2; rw [hw h2]; exact v.st1 h1 h2
  · intro h1 h2; rw [hw h2]; exact v.st3 h1 h2
  · intro h1 h2 h3 _
    obtain ⟨a, b, _⟩ := v.en h1 h2 h3 (fun h => absurd h h8)
    exact ⟨by rw [hw h2]; exact a, b, fun _ h => nomatch h⟩
  · intro _ h; exact absurd h (by decide : (0#16) ≠ 8)
  · intro h
    obtain ⟨a, _, c⟩ := v.stp h
    exact ⟨a, fun h => absurd h (by decide : (0#16) ≠ 8), c⟩

/-- The channel asks for a transfer from local storage. -/
theorem WInv.ask400 (v : WInv p k ls given sent got over) (h0 : k.pos = 0) (hl : k.lf = true)
    (hb : k.bf = false) : WInv p { k with pos := 0x400 } ls given sent got over := by
  have h8 : k.pos ≠ 8 := by rw [h0]; decide
  have hg : got = false := by
    cases hg : got with
    | false => rfl
    | true => exact absurd (v.g8 hg).1 h8
  subst hg
  refine ⟨v.p4, v.op, v.cd, ?_, ?_, (fun h => nomatch h), (fun _ _ => ⟨hl, hb⟩), v.live, v.st1, v.st2,
    v.st3, ?_, ?_, v.dead, ?_⟩
  · intro h
    rw [(v.req h).1] at hl; contradiction
  · intro h; exact absurd h (by decide : (0x400#16) ≠ 8)
  · intro h1 h2 h3 _
    exact v.en h1 h2 h3 (fun h => absurd h h8)
  · intro _ h; exact absurd h (by decide : (0x400#16) ≠ 8)
  · intro h
    obtain ⟨a, _, c⟩ := v.stp h
    exact ⟨a, fun h => absurd h (by decide : (0x400#16) ≠ 8), c⟩

/-- The channel asks for a word. -/
theorem WInv.ask80 (v : WInv p k ls given sent got over) (h0 : k.pos = 0) (hl : k.lf = false)
    (he : k.eor = false) : WInv p { k with req := 0x80 } ls given sent got over :=
  ⟨v.p4, v.op, v.cd, fun _ => ⟨hl, by show k.pos ≠ 8; rw [h0]; decide, he⟩, v.w8, v.g8, v.p400, v.live,
    v.st1, v.st2, v.st3, v.en, v.win, v.dead, v.stp⟩

/-- First and second signal of `.WFCH`. -/
theorem WInv.clock (v : WInv p k ls given sent got over) (h8 : k.pos = 8) (hc : k.clk ≠ 2) {e : Bool}
    (he : e = true → k.eor = true) {C : Nat} :
    WInv p { k with clk := C, eor := e } ls given sent got over := by
  have hg : got = false := by
    cases hg : got with
    | false => rfl
    | true => exact absurd (v.g8 hg).2 hc
  subst hg
  refine ⟨v.p4, v.op, v.cd, ?_, v.w8, (fun h => nomatch h), v.p400, v.live, v.st1, v.st2, v.st3, ?_, ?_,
    v.dead, ?_⟩
  · intro h; exact absurd h8 (v.req h).2.1
  · intro _ _ _ h; exact absurd (h h8) (by decide)
  · intro h; exact v.win (he h)
  · intro h; exact absurd ((v.stp h).2.1 h8) (by decide)

/-- The last cycle of `.WFCH`. -/
theorem WInv.wfEnd (v : WInv p k ls given sent got over) (h8 : k.pos = 8) (hg : got = true) :
    WInv p { k with clk := 0, pos := 0 } ls given sent false over := by
  refine ⟨v.p4, v.op, v.cd, ?_, ?_, (fun h => nomatch h), ?_, v.live, v.st1, v.st2, v.st3, ?_, ?_,
    v.dead, ?_⟩
  · intro h; exact absurd h8 (v.req h).2.1
  · intro h; exact absurd h (by decide : (0#16) ≠ 8)
  · intro h; exact absurd h (by decide : (0#16) ≠ 0x400)
  · intro h1 h2 h3 _; exact v.en h1 h2 h3 (fun _ => hg)
  · intro _ h; exact absurd h (by decide : (0#16) ≠ 8)
  · intro h
    obtain ⟨a, _, c⟩ := v.stp h
    exact ⟨a, fun h => absurd h (by decide : (0#16) ≠ 8), c⟩

theorem want_more (given : List W) (w : W) (p : Nat) :
    (flat (given ++ [w])).drop p = (flat given).drop p ++ (bytesOf w).drop (p - 4 * given.length) := by
  have e : flat [w] = bytesOf w := by simp [flat]
  rw [flat_append, List.drop_append, flat_length, e]

/-- The third signal: a word is given. -/
theorem WInv.give (v : WInv p k ls given sent got over) (h8 : k.pos = 8) (h2 : k.clk = 2)
    (hg : got = false) (w : W) {k' : K} {ls' : W}
    (hk : (k.bf = false ∧ k' = { k with br := w, bf := true } ∧ ls' = ls) ∨
      (k.bf = true ∧ k' = { k with lf := true } ∧ ls' = w)) :
    WInv p k' ls' (given ++ [w]) sent true over := by
  subst hg
  have hlf := v.w8 h8 rfl
  have hne : given ++ [w] ≠ [] := by simp
  have hlen : (given ++ [w]).length = given.length + 1 := by simp
  have dead : sent <+: (flat (given ++ [w])).drop p := by
    rw [want_more]; exact v.dead.trans (List.prefix_append _ _)
  have hns : k.stop = false := by
    cases hs : k.stop with
    | false => rfl
    | true => exact absurd ((v.stp hs).2.1 h8) (by decide)
  have core : k'.words ls' = k.words ls ++ [w] → k'.op = k.op → k'.cd = k.cd → k'.req = k.req →
      k'.pos = 8 → k'.clk = 2 → k'.gp = k.gp → k'.cf = k.cf → k'.eor = k.eor → k'.stop = k.stop →
      (k'.bf = false → k'.lf = false → False) → WInv p k' ls' (given ++ [w]) sent true over := by
    intro hw ho hcd hr hp hck hgp hcf heo hst hfull
    refine ⟨v.p4, ho.trans v.op, hcd.trans v.cd, ?_, (fun _ h => nomatch h), (fun _ => ⟨hp, hck⟩), ?_, ?_,
      ?_, ?_, ?_, ?_, (fun _ _ h => nomatch h), dead, ?_⟩
    · intro h; rw [hr] at h; exact absurd h8 (v.req h).2.1
    · intro h; rw [hp] at h; exact absurd h (by decide)
    · intro h1 h2
      rw [hst] at h1
      rw [hw, hgp, want_more given, ← v.live h1 h2, flat_append, List.drop_append, flat_length,
        List.append_assoc]
      congr 2
      have e : flat [w] = bytesOf w := by simp [flat]
      rw [e]
      have hpl := (pos_lt k.gp).1
      have hp4 := v.p4
      congr 1
      by_cases hgv : given = []
      · have := v.st1 h1 h2
        have e2 := v.st2 h1 h2 hgv
        rw [hgv] at this ⊢
        simp at this
        rw [this, e2]
      · have hgl : 1 ≤ given.length := by
          cases given with
          | nil => exact absurd rfl hgv
          | cons a l => simp
        by_cases hwd : k.words ls = []
        · have hcf0 : k.cf = false := by
            cases hcf0 : k.cf with
            | false => rfl
            | true => unfold K.words at hwd; rw [hcf0] at hwd; simp at hwd
          rcases v.st3 h1 h2 hcf0 with h | ⟨h, _⟩
          · rw [h]; omega
          · rw [hwd] at h; simp at h; omega
        · have : 1 ≤ (k.words ls).length := by
            cases hx : k.words ls with
            | nil => exact absurd hx hwd
            | cons a l => simp
          omega
    · intro h1 h2
      rw [hst] at h1
      have := v.st1 h1 h2
      rw [hw, hlen, List.length_append]
      simp; omega
    · intro _ _ h; exact absurd h hne
    · intro h1 h2 h3
      rw [hst] at h1; rw [hcf] at h3
      rw [hgp, hw, hlen, List.length_append]
      rcases v.st3 h1 h2 h3 with h | ⟨h, hh⟩
      · exact .inl h
      · exact .inr ⟨by simp; omega, hh⟩
    · intro h1 h2 h3 _
      refine ⟨by rw [hw]; simp, ?_, fun _ a b => (hfull a b).elim⟩
      rw [heo] at h3
      by_cases hgv : given = []
      · right; rw [hgp]; exact v.win h3 h8 rfl hgv
      · left; rw [hlen]
        cases given with
        | nil => exact absurd rfl hgv
        | cons a l => simp
    · intro h; rw [hst, hns] at h; contradiction
  rcases hk with ⟨hb, rfl, rfl⟩ | ⟨hb, rfl, rfl⟩
  · refine core ?_ rfl rfl rfl h8 h2 rfl rfl rfl rfl (fun h => nomatch h)
    unfold K.words
    rw [hlf, hb]; simp
  · refine core ?_ rfl rfl rfl h8 h2 rfl rfl rfl rfl (fun _ h => nomatch h)
    unfold K.words
    rw [hlf, hb]; simp

end

/-! ### The functions of the channel -/

/-- The invariant for a channel. -/
abbrev CW (p : Nat) (c : Chan) (ls : W) (given : List W) (sent : List B) (got over : Bool) : Prop :=
  WInv p c.k ls given sent got over

theorem no_pos' (q : BitVec 16) (h : (q == 0 || q == 0x400 || q == 0x08 || q == 0x04) = false) :
    ¬ (q = 0 ∨ q = 0x400 ∨ q = 0x08 ∨ q = 0x04) := by
  rintro (rfl | rfl | rfl | rfl) <;> simp at h

section
variable {p : Nat} {ls : W} {given : List W} {sent : List B} {got over : Bool}

theorem began_w {i : Nat} {ga : Glob} {c : Chan} (v : CW p c ls given sent got over)
    (hr : Writing (began i ga c)) : CW p (began i ga c) ls given sent got over := by
  unfold began accept at hr ⊢
  by_cases h1 : (!(ga.last || !ga.breakOut)) = true
  · rw [if_pos h1]; exact v
  · rw [if_neg h1] at hr ⊢
    by_cases h2 : (c.chpos != 0 || ga.breakOut || (ga.breakIn &&& mask i != 0)) = true
    · rw [if_pos h2]; exact v
    · rw [if_neg h2] at hr ⊢
      have h0 : c.chpos = 0 := by
        simp at h2; exact h2.1.1
      have h8 : c.k.pos ≠ 8 := by show c.chpos ≠ 8; rw [h0]; decide
      have hg : got = false := by
        cases hg : got with
        | false => rfl
        | true => exact absurd (v.g8 hg).1 h8
      dsimp only at hr ⊢
      split at hr
      · rename_i hq
        rw [if_pos (show c.op = 1 from v.op)] at hr ⊢
        have := v.req hq
        exact v.move hg h8 (fun _ => ⟨this.1, this.2.2⟩) (fun h => absurd h (by decide : (8#16) ≠ 0x400))
          (.inl (by decide : (0#8) ≠ 0x80))
      · exact absurd hr.2.2.2 (no_pos' 1 (by decide))
      · exact absurd hr.2.2.2 (no_pos' 0x100 (by decide))
      · exact v.move hg h8 (fun h => absurd h (by decide : (4#16) ≠ 8))
          (fun h => absurd h (by decide : (4#16) ≠ 0x400))
          (.inl (by decide : (0#8) ≠ 0x80))
      · split at hr
        · exact absurd hr.2.2.2 (no_pos' 0x80 (by decide))
        · exact absurd hr.2.2.2 (no_pos' 0x80 (by decide))
      · exact absurd hr.2.2.2 (no_pos' 2 (by decide))
      · exact absurd hr.2.2.2 (no_pos' 0x20 (by decide))
      · exact v.setReq (by decide : (0#8) ≠ 0x80)

theorem cToB_id {n : In} {c : Chan} (h : c.op = 1) : cToB n c = c := by
  unfold cToB; rw [h]; simp

theorem bToC_w {n : In} {c : Chan} (v : CW p c ls given sent got over) (h0 : c.chpos = 0) :
    CW p (bToC n c) ls given sent got over ∧ (bToC n c).chpos = 0 ∧ (bToC n c).tags = c.tags := by
  unfold bToC
  split
  · rename_i h
    simp at h
    exact ⟨v.bToC h0 h.1.1.2 h.1.2, h0, rfl⟩
  · exact ⟨v, h0, rfl⟩

theorem lsAsk_w {i : Nat} {x : X} (v : CW p x.c ls given sent got over) (h0 : x.c.chpos = 0) :
    CW p (lsAsk i x).c ls given sent got over ∧ (lsAsk i x).c.tags = x.c.tags ∧
      ((lsAsk i x).c.chpos = 0 ∨ (lsAsk i x).c.chpos = 0x400) := by
  have hop : x.c.op = 1 := v.op
  unfold lsAsk
  split
  · rw [if_neg (show ¬ (x.c.op &&& 6 ≠ 0 ∧ x.c.bFull = true ∧ x.c.lsFull = false) by
      rw [hop]; intro h; exact h.1 (by decide))]
    dsimp only
    split
    · rename_i h
      exact ⟨v.ask400 h0 h.2.1 h.2.2, rfl, .inr rfl⟩
    · exact ⟨v, rfl, .inl h0⟩
  · exact ⟨v, rfl, .inl h0⟩

theorem gone_w {n : In} {c : Chan} (v : CW p c ls given sent got over)
    (ho : n.t.oprIn = false → over = true) :
    CW p (gone n c) ls given sent got over ∧ (gone n c).tags.srv = c.tags.srv ∧
      (gone n c).chpos = c.chpos := by
  unfold gone
  split
  · exact ⟨v, rfl, rfl⟩
  · rename_i h
    have := ho (by simpa using h)
    subst this
    exact ⟨v.ends (bf := c.bFull) (lf := c.lsFull) (cr := c.cReg) (fun h => h), rfl, rfl⟩

theorem ask_w {n : In} {c : Chan} (v : CW p c ls given sent got over) :
    CW p (ask n c) ls given sent got over ∧ (ask n c).tags = c.tags ∧ (ask n c).chpos = c.chpos := by
  have hop : c.op = 1 := v.op
  unfold ask
  rw [if_neg (show ¬ (c.lsFull = true ∧ c.chreq = 0 ∧ c.chpos = 0 ∧ n.t.oprIn = true ∧
    c.op &&& 6 ≠ 0) by rw [hop]; intro h; exact h.2.2.2.2 (by decide))]
  dsimp only
  split
  · rename_i h
    exact ⟨v.ask80 h.2.2.1 h.1 h.2.2.2.2.2, rfl, rfl⟩
  · exact ⟨v, rfl, rfl⟩

theorem ending_w {n : In} {c : Chan} (v : CW p c ls given sent got over)
    (ho : n.t.staIn = true → over = true) :
    CW p (ending n c) ls given sent got over ∧ (ending n c).tags = c.tags ∧
      (ending n c).chpos = c.chpos := by
  have hop : c.op = 1 := v.op
  unfold ending
  split
  · rename_i h
    have hst : n.t.staIn = true := by simp at h; exact h.2
    have := ho hst
    subst this
    simp only [if_pos hop]
    have v' := v.ends (cf := false) (bf := false) (lf := false)
      (cr := putStatus c.cReg n.data) (fun h => nomatch h)
    split
    · exact ⟨v'.setReq (by decide : (0x10#8) ≠ 0x80), rfl, rfl⟩
    · exact ⟨v.ends (cf := false) (bf := false) (lf := false) (cr := c.cReg) (fun h => nomatch h),
        rfl, rfl⟩
  · exact ⟨v, rfl, rfl⟩

theorem auto_w {i : Nat} {n : In} {x : X} (v : CW p x.c ls given sent got over)
    (h0 : x.c.chpos = 0) (ho : n.t.oprIn = false → over = true) (hs : n.t.staIn = true → over = true) :
    CW p (auto i n x).c ls given sent got over ∧ (auto i n x).c.tags.srv = x.c.tags.srv ∧
      ((auto i n x).c.chpos = 0 ∨ (auto i n x).c.chpos = 0x400) := by
  have hop : x.c.op = 1 := v.op
  have e : auto i n x = (fun y : X => { y with c := ending n (ask n (gone n y.c)) })
      (lsAsk i { x with c := bToC n x.c }) := by
    unfold auto; rw [cToB_id hop]
  rw [e]
  dsimp only
  obtain ⟨a1, a2, a3⟩ := bToC_w (n := n) v h0
  obtain ⟨b1, b2, b3⟩ := lsAsk_w (i := i) (x := { x with c := bToC n x.c }) a1 a2
  obtain ⟨c1, c2, c3⟩ := gone_w (n := n) b1 ho
  obtain ⟨d1, d2, d3⟩ := ask_w (n := n) c1
  obtain ⟨e1, e2, e3⟩ := ending_w (n := n) d1 hs
  refine ⟨e1, ?_, ?_⟩
  · rw [e2, d2, c2, b2]
    show (bToC n x.c).tags.srv = _
    rw [a3]
  · rw [e3, d3, c3]; exact b3

theorem at400 (i : Nat) (n : In) (x : X) (h : x.c.chpos = 0x400) : (positions i n x).c =
    if x.g.last then { x.c with chclk := 0, chpos := 0, bReg := x.g.aob, lsFull := false,
                                bFull := true } else x.c := by
  have hn : x.c.chpos ≠ 0x200 := by rw [h]; decide
  cases hl : x.g.last
  · have e : posLs x = x := by unfold posLs; rw [hl, h]; rfl
    unfold positions
    rw [e]
    simp [posUa, posCcw1, posCcw2, posSel, posRst, posWf, posEnd, posCmp, posIrq, h]
  · have e : posLs x = { x with c := { x.c with
        chclk := 0, chpos := 0, bReg := x.g.aob, lsFull := false, bFull := true } } := by
      unfold posLs
      rw [if_neg (fun hh => hn hh.1), if_pos ⟨h, hl⟩]
    unfold positions
    rw [e]
    simp [posUa, posCcw1, posCcw2, posSel, posRst, posWf, posEnd, posCmp, posIrq]

theorem at08 (i : Nat) (n : In) (x : X) (h : x.c.chpos = 0x08) :
    (positions i n x).c = (posWf i x).c := by
  unfold positions
  have e : posRst (posSel i n (posCcw2 i (posCcw1 i (posUa (posLs x))))) = x := by
    simp [posLs, posUa, posCcw1, posCcw2, posSel, posRst, h]
  rw [e]
  have hp : (posWf i x).c.chpos = 8 ∨ (posWf i x).c.chpos = 0 := by
    unfold posWf
    rw [if_pos h]
    have key : ∀ y : X, y.c.chpos = 8 → (if y.g.last then
        { y with c := { y.c with chclk := 0, chpos := 0, iostat := y.c.iostat &&& 0xef } }
          else y : X).c.chpos = 8 ∨ (if y.g.last then
        { y with c := { y.c with chclk := 0, chpos := 0, iostat := y.c.iostat &&& 0xef } }
          else y : X).c.chpos = 0 := by
      intro y hy
      split
      · exact .inr rfl
      · exact .inl hy
    apply key
    repeat' split
    all_goals exact h
  generalize posWf i x = y at hp
  rcases hp with hp | hp <;> simp [posEnd, posCmp, posIrq, hp]

theorem endb_eor (i : Nat) (n : In) (x : X) : (endb i n x).c.eor = x.c.eor := by
  unfold endb; dsimp only; repeat' split
  all_goals rfl

theorem posEnd_eor (i : Nat) (n : In) (x : X) : (posEnd i n x).c.eor = x.c.eor := by
  have key : ∀ y : X, (endLast y).c.eor = y.c.eor := fun y => by
    unfold endLast; split <;> rfl
  unfold posEnd
  split
  · rw [key]
    repeat' split
    all_goals first | rfl | exact endb_eor i n _
  · rfl

end

end Verif.Sel50
