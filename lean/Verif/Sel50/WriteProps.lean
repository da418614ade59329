import Verif.Sel50.WriteRun

/-!
# C140: what a device gets on a write

The bytes sent are those of the words fetched from main storage, in their order, from the first byte
position on, none twice, none left out; and exactly as many as the count of the CCW says.
-/

namespace Verif.Sel50

/-! ### The count and the end position -/

theorem low2w (a : W) : (a &&& 3).setWidth 8 = (a.setWidth 2).setWidth 8 := by
  apply BitVec.eq_of_toNat_eq
  rw [BitVec.toNat_setWidth, BitVec.toNat_and, BitVec.toNat_setWidth, BitVec.toNat_setWidth]
  have : a.toNat &&& 3 = a.toNat % 4 := Nat.and_two_pow_sub_one_eq_mod a.toNat 2
  show (a.toNat &&& 3) % _ = _
  rw [this]

theorem or_end : ∀ (gp : B) (x : BitVec 2), pos (gp ||| (x.setWidth 8 <<< 3)) = pos gp ∧
    (last gp = 0 ∨ last gp = x.toNat → last (gp ||| (x.setWidth 8 <<< 3)) = x.toNat) := by
  decide +kernel

theorem set_end : ∀ (gp : B) (x : BitVec 2), pos ((gp &&& 0xe7) ||| (x.setWidth 8 <<< 3)) = pos gp ∧
    last ((gp &&& 0xe7) ||| (x.setWidth 8 <<< 3)) = x.toNat := by
  decide +kernel

theorem bit16 (a : W) : a &&& 0x10000 ≠ 0 ↔ 65536 ≤ a.toNat % 131072 := by
  have e : (a &&& 0x10000).toNat = 65536 * (a.toNat / 65536 % 2) := by
    have h : (0x10000#32 : W) = BitVec.twoPow 32 16 := by decide
    show (a &&& 0x10000#32).toNat = _
    rw [h, BitVec.and_twoPow]
    have hb : a.getLsbD 16 = decide (a.toNat / 65536 % 2 = 1) := by
      rw [← BitVec.testBit_toNat, Nat.testBit_eq_decide_div_mod_eq]
    cases hc : a.getLsbD 16 with
    | true =>
      rw [hc] at hb
      have : a.toNat / 65536 % 2 = 1 := by simpa using hb.symm
      rw [this, if_pos rfl]; rfl
    | false =>
      rw [hc] at hb
      have : ¬ a.toNat / 65536 % 2 = 1 := by simpa using hb.symm
      have : a.toNat / 65536 % 2 = 0 := by omega
      rw [this, if_neg (by decide)]; rfl
  constructor
  · intro h
    have : (a &&& 0x10000).toNat ≠ 0 := fun hh => h (BitVec.eq_of_toNat_eq hh)
    omega
  · intro h hh
    rw [hh] at e
    have : (0 : W).toNat = 0 := rfl
    omega

theorem low16 (a : W) : a &&& 0xffff = 0 ↔ a.toNat % 65536 = 0 := by
  have e : (a &&& 0xffff).toNat = a.toNat % 65536 := by
    rw [BitVec.toNat_and]; exact Nat.and_two_pow_sub_one_eq_mod a.toNat 16
  constructor
  · intro h; rw [← e, h]; rfl
  · intro h; apply BitVec.eq_of_toNat_eq; rw [e, h]; rfl

/-- What the test of the count does, in terms of the bytes left. -/
theorem lastWord_says {c : Chan} {aob : W} {R : Int} (hop : c.op = 1) (hR : -4 < R) (hR2 : R < 65536)
    (ha : ((aob.toNat : Int) - R) % 131072 = 0) (hl : (last c.gp : Int) = 0 ∨ (last c.gp : Int) = R % 4) :
    ∃ g e, (lastWord aob c).k = { c.k with gp := g, eor := e } ∧ (lastWord aob c).chpos = c.chpos ∧
      (lastWord aob c).chclk = c.chclk ∧ pos g = pos c.gp ∧
      (R ≤ 0 → e = true ∧ (last g : Int) = R % 4) ∧
      (0 < R → e = c.eor ∧ ((last g : Int) = last c.gp ∨ (last g : Int) = R % 4)) := by
  have hx : ((aob.setWidth 2).toNat : Int) = R % 4 := by
    rw [BitVec.toNat_setWidth]; omega
  have hc : (aob &&& 0x10000 ≠ 0 ∨ aob &&& 0xffff = 0) ↔ R ≤ 0 := by
    rw [bit16, low16]; omega
  unfold lastWord
  rw [low2w]
  by_cases h : R ≤ 0
  · rw [if_pos ⟨hop, hc.mpr h⟩]
    obtain ⟨o1, o2⟩ := or_end c.gp (aob.setWidth 2)
    refine ⟨_, true, rfl, rfl, rfl, o1, fun _ => ⟨rfl, ?_⟩, fun h' => absurd h' (by omega)⟩
    have := o2 (by omega)
    show (last (c.gp ||| ((aob.setWidth 2).setWidth 8 <<< 3)) : Int) = R % 4
    rw [this]; exact hx
  · rw [if_neg (fun hh => h (hc.mp hh.2))]
    split
    · exact ⟨c.gp, c.eor, rfl, rfl, rfl, rfl, fun h' => absurd h' h, fun _ => ⟨rfl, .inl rfl⟩⟩
    · obtain ⟨o1, o2⟩ := set_end c.gp (aob.setWidth 2)
      refine ⟨(c.gp &&& 0xe7) ||| ((aob.setWidth 2).setWidth 8 <<< 3), c.eor, ?_, rfl, rfl, o1,
        fun h' => absurd h' h, fun _ => ⟨rfl, .inr ?_⟩⟩
      · unfold Chan.k
        dsimp only
        rw [hop]
        rfl
      · rw [o2]; exact hx

/-- The words that are spoken for: those given, and the one counted and not yet given. -/
def due (given : List W) (got counted : Bool) : Nat :=
  given.length + (if counted && !got then 1 else 0)

structure EInv (N p : Nat) (k : K) (given : List W) (got counted : Bool) : Prop where
  lst : last k.gp = 0 ∨ last k.gp = (N + p) % 4
  cp : counted = true → k.pos = 8 ∧ k.clk ≠ 0
  gc : got = true → counted = true
  ce : k.eor = true → k.pos = 8 → counted = true
  fin : k.eor = true → last k.gp = (N + p) % 4 ∧ N + p ≤ 4 * due given got counted ∧
    4 * due given got counted < N + p + 4
  more : k.eor = false → 4 * due given got counted < N + p

/-- The invariant of a write of `N` bytes. -/
structure Good (N p : Nat) (s : Wr) : Prop where
  n0 : 0 < N
  n1 : N < 65536
  w : CW p s.c s.ls s.given s.sent s.got s.over
  e : EInv N p s.c.k s.given s.got s.counted

theorem good_count {N p i : Nat} {s : Wr} {aob : W} (g : Good N p s)
    (h : (WrEv.count aob).Ok N p i s) : Good N p (s.step i (.count aob)) := by
  obtain ⟨h8, hk, hg, hcn, ha⟩ := h
  have v := g.w
  have e := g.e
  have hp4 := v.p4
  have hn1 := g.n1
  have hn0 := g.n0
  have heo : s.c.eor = false := by
    cases he : s.c.eor with
    | false => rfl
    | true => have := e.ce he h8; rw [hcn] at this; contradiction
  have hm := e.more heo
  have hd : due s.given s.got s.counted = s.given.length := by
    unfold due; rw [hcn]; rfl
  have hd' : due s.given s.got true = s.given.length + 1 := by
    unfold due; rw [hg]; rfl
  rw [hd] at hm
  have hl := e.lst
  obtain ⟨gp', eo, q1, q2, q3, q4, q5, q6⟩ := lastWord_says (c := s.c) (aob := aob)
    (R := (N + p : Int) - 4 * (s.given.length + 1)) v.op (by omega) (by omega) ha (by
      rcases hl with hl | hl
      · left; rw [show last s.c.gp = 0 from hl]; rfl
      · right; rw [show last s.c.gp = _ from hl]; omega)
  refine ⟨g.n0, g.n1, ?_, ?_⟩
  · show WInv p (lastWord aob s.c).k s.ls s.given s.sent s.got s.over
    rw [q1, hg]
    rw [hg] at v
    have hq4 : pos gp' = pos s.c.k.gp := q4
    refine ⟨v.p4, v.op, v.cd, ?_, v.w8, (fun h => nomatch h), v.p400, ?_, v.st1, ?_, ?_, ?_, ?_, v.dead, ?_⟩
    · intro h; exact absurd h8 (v.req h).2.1
    · intro h1 h2
      show s.sent ++ (flat (s.c.k.words s.ls)).drop (pos gp') = _
      rw [hq4]; exact v.live h1 h2
    · intro h1 h2 h3; exact q4.trans (v.st2 h1 h2 h3)
    · intro h1 h2 h3
      show pos gp' = 0 ∨ ((s.c.k.words s.ls).length = _ ∧ pos gp' = p)
      rw [hq4]; exact v.st3 h1 h2 h3
    · intro _ _ _ h; exact absurd (h h8) (by decide)
    · intro hE _ _ hgv
      have hE' : eo = true := hE
      show Fits p gp'
      by_cases hR : (N + p : Int) - 4 * (s.given.length + 1) ≤ 0
      · have := (q5 hR).2
        rw [hgv] at this hR
        unfold Fits
        simp at this hR
        omega
      · have := (q6 (by omega)).1
        rw [heo, hE'] at this; contradiction
    · intro h; exact absurd ((v.stp h).2.1 h8) (by decide)
  · show EInv N p (lastWord aob s.c).k s.given s.got true
    rw [q1]
    by_cases hR : (N + p : Int) - 4 * (s.given.length + 1) ≤ 0
    · obtain ⟨a, b⟩ := q5 hR
      have b' : last gp' = (N + p) % 4 := by omega
      refine ⟨.inr b', fun _ => ⟨h8, hk⟩, fun _ => rfl, fun _ _ => rfl, ?_, ?_⟩
      · intro _; rw [hd']; exact ⟨b', by omega, by omega⟩
      · intro h; rw [show ({ s.c.k with gp := gp', eor := eo } : K).eor = eo from rfl, a] at h
        contradiction
    · obtain ⟨a, b⟩ := q6 (by omega)
      refine ⟨?_, fun _ => ⟨h8, hk⟩, fun _ => rfl, fun _ _ => rfl, ?_, ?_⟩
      · show last gp' = 0 ∨ last gp' = (N + p) % 4
        have hl' : last s.c.gp = 0 ∨ last s.c.gp = (N + p) % 4 := hl
        omega
      · intro h; rw [show ({ s.c.k with gp := gp', eor := eo } : K).eor = eo from rfl, a, heo] at h
        contradiction
      · intro _; rw [hd']; omega

/-! ### A cycle -/

theorem began_end {i : Nat} {ga : Glob} {c : Chan} : (began i ga c).eor = c.eor ∧
    (((began i ga c).chpos = c.chpos ∧ (began i ga c).chclk = c.chclk) ∨
      (c.chpos = 0 ∧ ((began i ga c).chpos = 8 → c.chreq = 0x80))) := by
  unfold began accept
  dsimp only
  split
  · exact ⟨rfl, .inl ⟨rfl, rfl⟩⟩
  · split
    · exact ⟨rfl, .inl ⟨rfl, rfl⟩⟩
    · rename_i h
      have h0 : c.chpos = 0 := by simp at h; exact h.1.1
      split
      · rename_i hq; split
        all_goals exact ⟨rfl, .inr ⟨h0, fun _ => hq⟩⟩
      · exact ⟨rfl, .inr ⟨h0, fun h' => absurd h' (by decide : (1#16) ≠ 8)⟩⟩
      · exact ⟨rfl, .inr ⟨h0, fun h' => absurd h' (by decide : (0x100#16) ≠ 8)⟩⟩
      · exact ⟨rfl, .inr ⟨h0, fun h' => absurd h' (by decide : (4#16) ≠ 8)⟩⟩
      · split
        all_goals exact ⟨rfl, .inr ⟨h0, fun h' => absurd h' (by decide : (0x80#16) ≠ 8)⟩⟩
      · exact ⟨rfl, .inr ⟨h0, fun h' => absurd h' (by decide : (2#16) ≠ 8)⟩⟩
      · exact ⟨rfl, .inr ⟨h0, fun h' => absurd h' (by decide : (0x20#16) ≠ 8)⟩⟩
      · exact ⟨rfl, .inr ⟨h0, fun h' => by
          have h'' : c.chpos = 8 := h'
          rw [h0] at h''; exact absurd h'' (by decide)⟩⟩

theorem good_cycle {N p i : Nat} {s : Wr} {n : In} {ga gw : Glob} (g : Good N p s)
    (h : (WrEv.cycle n ga gw).Ok N p i s) : Good N p (s.step i (.cycle n ga gw)) ∧
      (accepts n s.c (cycled i n ga gw s.c) = true →
        s.c.ifStop = false ∧ (cycled i n ga gw s.c).busPar = oddPar (cycled i n ga gw s.c).busOut) := by
  obtain ⟨hr, hsv, hss, hov, hwin, hgv, hl8, hl4⟩ := h
  have e := g.e
  have hb := began_end (i := i) (ga := ga) (c := s.c)
  have hbf := began_frame (i := i) (ga := ga) (c := s.c)
  have v0 := began_w (i := i) (ga := ga) (g.w.setOver (s.over || n.t.staIn || !n.t.oprIn) (by
    intro h; simp at h; exact h.1.1)) hr
  obtain ⟨y, hy, m1, m2, m3, m4, m5, m6, m7, m8⟩ := mid_w (i := i) (n := n) (g := gw) v0 hr
    (by intro h; rw [h]; simp) (by intro h; rw [h]; simp) (fun h => ⟨(hgv h).1, (hgv h).2.1⟩) hl8 hl4
  have hw : cycled i n ga gw s.c = serve n (dropCmd n (dropSrv i n y).c) := by rw [hy]; rfl
  have d1 : ∃ t, dropCmd n (dropSrv i n y).c = { y.c with tags := t } ∧
      (n.t.srvIn = true → t.srv = y.c.tags.srv) := by
    unfold dropSrv dropCmd
    split
    · rename_i hd
      have : n.t.srvIn = false := by simp at hd; exact hd.1.2
      split
      · exact ⟨_, rfl, fun h => by rw [this] at h; contradiction⟩
      · exact ⟨_, rfl, fun h => by rw [this] at h; contradiction⟩
    · split
      · exact ⟨_, rfl, fun _ => rfl⟩
      · exact ⟨y.c.tags, rfl, fun _ => rfl⟩
  obtain ⟨t, t1, t2⟩ := d1
  rw [t1] at hw
  have vz : CW p { y.c with tags := t } _ _ _ _ _ := m1
  obtain ⟨s1, s2, s3, s4, s5, s6⟩ := serve_w (n := n) vz (by
      intro h1 h2
      have h3 : n.t.staIn = false := by rw [h1] at hss; simpa using hss
      have h4 : s.over = false := by
        cases ho : s.over with
        | false => rfl
        | true => have := hov ho; rw [h1] at this; contradiction
      rw [h2, h3, h4]; rfl)
    (by
      intro h1 h2 h3
      obtain ⟨p1, p2⟩ := m3 h3
      have he : s.c.eor = true := hb.1 ▸ (m5 h2)
      rw [p2, Bool.not_false, Bool.and_true]
      cases hg : s.got with
      | true => rfl
      | false =>
        cases hgi : gives (began i ga s.c) gw with
        | true => rfl
        | false => have := hwin p1 hg he hgi; rw [h1] at this; contradiction)
    (by
      cases hi : n.t.srvIn with
      | false => exact .inr rfl
      | true =>
        left
        have h3 : n.t.staIn = false := by rw [hi] at hss; simpa using hss
        show n.t.srv = t.srv
        rw [t2 hi, m2 h3, hbf.2.2.2.2.1]; exact hsv)
  rw [← hw] at s1 s2 s3 s4 s5 s6
  have hacc : accepts n s.c (cycled i n ga gw s.c) = (n.t.srvIn && n.t.oprIn && !n.t.srv &&
      (cycled i n ga gw s.c).tags.srv) := by unfold accepts; rw [hsv]
  rw [← hacc] at s1 s6
  refine ⟨⟨g.n0, g.n1, s1, ?_⟩, fun h => ⟨by rw [← hbf.2.1, ← m8]; exact (s6 h).1, (s6 h).2⟩⟩
  -- the count and the end position
  have hlast : last (cycled i n ga gw s.c).gp = last s.c.gp := by
    rw [s3]
    show last y.c.gp = _
    rw [m6, hbf.1]
  have heor : (cycled i n ga gw s.c).eor = y.c.eor := s2
  have hpos : (cycled i n ga gw s.c).chpos = y.c.chpos := s4
  have hclk : (cycled i n ga gw s.c).chclk = y.c.chclk := s5
  show EInv N p (cycled i n ga gw s.c).k (s.given ++ (if gives (began i ga s.c) gw then [gw.aob] else []))
      ((s.got || gives (began i ga s.c) gw) && !gw.last) (s.counted && !gw.last)
  generalize cycled i n ga gw s.c = c' at hlast heor hpos hclk ⊢
  -- counted means that the routine runs
  have hcb : s.counted = true → (began i ga s.c).chpos = 8 ∧ (began i ga s.c).chclk ≠ 0 := by
    intro h
    obtain ⟨a, b⟩ := e.cp h
    rcases hb.2 with ⟨q1, q2⟩ | ⟨q1, _⟩
    · rw [q1, q2]; exact ⟨a, b⟩
    · have : s.c.chpos = 8 := a
      rw [q1] at this; exact absurd this (by decide)
  have hce : s.c.eor = true → (began i ga s.c).chpos = 8 → s.counted = true := by
    intro h h8
    rcases hb.2 with ⟨q1, _⟩ | ⟨_, q2⟩
    · exact e.ce h (q1.symm.trans h8)
    · have := (g.w.req (q2 h8)).2.2
      rw [show s.c.k.eor = true from h] at this; contradiction
  have heq : y.c.eor = s.c.eor := by
    rcases m7 with h | ⟨h8, h0⟩
    · rw [h, hb.1]
    · cases hE : s.c.eor with
      | true => exact absurd h0 (hcb (hce hE h8)).2
      | false =>
        cases hY : y.c.eor with
        | false => rfl
        | true => have := m5 hY; rw [hb.1, hE] at this; contradiction
  have hl : gw.last = true → s.counted = true →
      s.got = true ∨ gives (began i ga s.c) gw = true := fun h hc => hl8 (hcb hc).1 h
  have hdue : due (s.given ++ (if gives (began i ga s.c) gw then [gw.aob] else []))
      ((s.got || gives (began i ga s.c) gw) && !gw.last) (s.counted && !gw.last) =
      due s.given s.got s.counted := by
    unfold due
    cases hgi : gives (began i ga s.c) gw with
    | true =>
      obtain ⟨a, _, b⟩ := hgv hgi
      rw [a, b]
      cases gw.last <;> simp
    | false =>
      cases hL : gw.last with
      | false => simp
      | true =>
        cases hC : s.counted with
        | false => simp
        | true =>
          rcases hl hL hC with h | h
          · rw [h]; simp
          · rw [hgi] at h; contradiction
  have hgc : ((s.got || gives (began i ga s.c) gw) && !gw.last) = true →
      (s.counted && !gw.last) = true := by
    intro h
    simp at h
    have hL : gw.last = false := h.2
    have : s.counted = true := by
      rcases h.1 with h | h
      · exact e.gc h
      · exact (hgv h).2.2
    rw [this, hL]; rfl
  refine ⟨?_, ?_, hgc, ?_, ?_, ?_⟩
  · show last c'.gp = 0 ∨ last c'.gp = _
    rw [hlast]; exact e.lst
  · intro h
    have h' : (s.counted && !gw.last) = true := h
    simp at h'
    obtain ⟨a, b⟩ := hcb h'.1
    show c'.chpos = 8 ∧ c'.chclk ≠ 0
    rw [hpos, hclk]
    exact m4 a b h'.2
  · intro h1 h2
    have h1' : c'.eor = true := h1
    have h2' : c'.chpos = 8 := h2
    rw [heor, heq] at h1'
    rw [hpos] at h2'
    obtain ⟨a, b⟩ := m3 h2'
    show (s.counted && !gw.last) = true
    rw [b, hce h1' a]; rfl
  · intro h
    have h' : c'.eor = true := h
    rw [heor, heq] at h'
    rw [show c'.k.gp = c'.gp from rfl, hlast, hdue]; exact e.fin h'
  · intro h
    have h' : c'.eor = false := h
    rw [heor, heq] at h'
    rw [hdue]; exact e.more h'

/-! ### The theorems -/

/-- The CCW has been fetched and the unit has accepted the command: write, no data chaining, nothing
fetched yet; the position is the one given by the address. -/
structure Wr.Begin (N p : Nat) (s : Wr) : Prop where
  n0 : 0 < N
  n1 : N < 65536
  p4 : p < 4
  op : s.c.op = 1
  cd : s.c.cd = false
  chpos : s.c.chpos = 0
  cFull : s.c.cFull = false
  bFull : s.c.bFull = false
  lsFull : s.c.lsFull = false
  eor : s.c.eor = false
  ifStop : s.c.ifStop = false
  first : pos s.c.gp = p
  end0 : last s.c.gp = 0
  given : s.given = []
  sent : s.sent = []
  got : s.got = false
  counted : s.counted = false
  over : s.over = false

/-- This is how the third signal of the second half of a CCW leaves the channel. -/
theorem ccw2c_begins {g : Glob} {c : Chan} (hop : c.op = 1) (hcd : c.cd = false) (hd : c.d2 = false)
    (hf : c.flags &&& 0x8000 = 0) (hg : c.gp &&& 0x1f = 0) :
    (ccw2c g c).op = 1 ∧ (ccw2c g c).cd = false ∧ (ccw2c g c).chpos = 0 ∧ (ccw2c g c).cFull = false ∧
      (ccw2c g c).eor = false ∧ (ccw2c g c).ifStop = false ∧ pos (ccw2c g c).gp = pos c.gp ∧
      last (ccw2c g c).gp = 0 := by
  have hk : ∀ (gp : B) (x : B), gp &&& 0x1f = 0 →
      (pos (gp &&& 0xf8) = pos gp ∧ last (gp &&& 0xf8) = 0) ∧
      (pos (((gp &&& 0x67) ||| (x &&& 3)) &&& 0xf8) = pos gp ∧
        last (((gp &&& 0x67) ||| (x &&& 3)) &&& 0xf8) = 0) := by
    intro gp x h
    have e : ((gp &&& 0x67) ||| (x &&& 3)) &&& 0xf8 = gp &&& 0x60 := by
      apply BitVec.eq_of_getLsbD_eq
      intro i hi
      have : i = 0 ∨ i = 1 ∨ i = 2 ∨ i = 3 ∨ i = 4 ∨ i = 5 ∨ i = 6 ∨ i = 7 := by omega
      rcases this with rfl | rfl | rfl | rfl | rfl | rfl | rfl | rfl <;> simp
    rw [e]
    clear e
    revert gp
    decide +kernel
  have hgp : pos (ccw2c g c).gp = pos c.gp ∧ last (ccw2c g c).gp = 0 := by
    unfold ccw2c
    dsimp only
    rw [if_pos hop]
    split
    · exact (hk c.gp _ hg).2
    · exact (hk c.gp 0 hg).1
  refine ⟨hop, ?_, rfl, ?_, rfl, rfl, hgp.1, hgp.2⟩
  · show (if c.d2 = false then c.flags &&& 0x8000 != 0 else c.cd) = false
    rw [if_pos hd, hf]; rfl
  · show (if c.cd = false ∨ c.d2 = true then false else c.cFull) = false
    rw [if_pos (.inl hcd)]

theorem Wr.Begin.good {N p : Nat} {s : Wr} (b : s.Begin N p) : Good N p s := by
  have hw : s.c.k.words s.ls = [] := by
    unfold K.words
    rw [show s.c.k.cf = false from b.cFull, show s.c.k.bf = false from b.bFull,
      show s.c.k.lf = false from b.lsFull]; rfl
  have hp0 : s.c.k.pos = 0 := b.chpos
  have h8 : s.c.k.pos ≠ 8 := by rw [hp0]; decide
  have hE : s.c.k.eor = false := b.eor
  refine ⟨b.n0, b.n1, ⟨b.p4, b.op, b.cd, fun _ => ⟨b.lsFull, h8, b.eor⟩, fun h => absurd h h8, ?_, ?_,
    ?_, ?_, fun _ _ _ => b.first, ?_, ?_, ?_, ?_, ?_⟩, ⟨.inl b.end0, ?_, ?_, ?_, ?_, ?_⟩⟩
  · intro h; rw [b.got] at h; contradiction
  · intro h; rw [hp0] at h; exact absurd h (by decide)
  · intro _ _; rw [hw, b.sent, b.given]; simp [flat]
  · intro _ _; rw [hw]; simp
  · intro _ _ _; exact .inr ⟨by rw [hw, b.given], b.first⟩
  · intro _ _ h; rw [hE] at h; contradiction
  · intro h; rw [hE] at h; contradiction
  · rw [b.sent]; exact List.nil_prefix
  · intro h; rw [show s.c.k.stop = false from b.ifStop] at h; contradiction
  · intro h; rw [b.counted] at h; contradiction
  · intro h; rw [b.got] at h; contradiction
  · intro h; rw [hE] at h; contradiction
  · intro h; rw [hE] at h; contradiction
  · intro _
    have : due s.given s.got s.counted = 0 := by unfold due; rw [b.given, b.counted]; rfl
    have := b.n0
    omega

theorem good_step {N p i : Nat} {s : Wr} (g : Good N p s) (e : WrEv) (h : e.Ok N p i s) :
    Good N p (s.step i e) := by
  cases e with
  | cycle n ga gw => exact (good_cycle g h).1
  | count aob => exact good_count g h

theorem good_run {N p i : Nat} {s t : Wr} (b : s.Begin N p) (r : Wr.Run N p i s t) : Good N p t := by
  induction r with
  | refl => exact b.good
  | step e _ h ih => exact good_step ih e h

/-- Not more bytes than the count says. -/
theorem good_len {N p : Nat} {s : Wr} (g : Good N p s) (ho : s.over = false) : s.sent.length ≤ N ∧
    (s.c.ifStop = true → s.sent.length = N) := by
  have v := g.w
  have e := g.e
  have hp4 := v.p4
  have hdead := v.dead.length_le
  rw [List.length_drop, flat_length] at hdead
  obtain ⟨hgp, hlp⟩ := pos_lt s.c.k.gp
  by_cases hE : s.c.k.eor = true
  · obtain ⟨f1, f2, f3⟩ := e.fin hE
    by_cases hwin : s.c.k.pos = 8 ∧ s.got = false
    · have hns : s.c.k.stop = false := by
        cases hs : s.c.k.stop with
        | false => rfl
        | true => have := (v.stp hs).2.1 hwin.1; rw [hwin.2] at this; contradiction
      have hd : due s.given s.got s.counted = s.given.length + 1 := by
        unfold due; rw [hwin.2, e.ce hE hwin.1]; rfl
      refine ⟨by omega, fun h => ?_⟩
      rw [show s.c.k.stop = true from h] at hns; contradiction
    · have hw : s.c.k.pos = 8 → s.got = true := by
        intro h
        cases hg : s.got with
        | true => rfl
        | false => exact absurd ⟨h, hg⟩ hwin
      have hd : due s.given s.got s.counted = s.given.length := by
        unfold due
        cases hc : s.counted with
        | false => rfl
        | true => rw [hw (e.cp hc).1]; rfl
      rw [hd] at f2 f3
      have ht : N + p + tail s.c.k.gp = 4 * s.given.length := by
        unfold tail
        split <;> omega
      cases hs : s.c.k.stop with
      | true =>
        have := (v.stp hs).2.2
        exact ⟨by omega, fun _ => by omega⟩
      | false =>
        refine ⟨?_, fun h => ?_⟩
        · obtain ⟨n1, n2, n3⟩ := v.en hs ho hE hw
          have hl := congrArg List.length (v.live hs ho)
          rw [List.length_append, List.length_drop, List.length_drop, flat_length, flat_length] at hl
          have htl : tail s.c.k.gp ≤ 3 := by unfold tail; split <;> omega
          have hne : 1 ≤ (s.c.k.words s.ls).length := by
            cases hx : s.c.k.words s.ls with
            | nil => exact absurd hx n1
            | cons a l => simp
          by_cases h2 : 2 ≤ (s.c.k.words s.ls).length
          · omega
          · have h1 : (s.c.k.words s.ls).length = 1 := by omega
            cases hcf : s.c.k.cf with
            | false =>
              rcases v.st3 hs ho hcf with h | ⟨h, h'⟩ <;> omega
            | true =>
              have : s.c.k.bf = false ∧ s.c.k.lf = false := by
                unfold K.words at h1
                rw [hcf] at h1
                cases hb : s.c.k.bf <;> cases hlf : s.c.k.lf <;> rw [hb, hlf] at h1 <;> simp at h1 ⊢
              have hf := n3 hcf this.1 this.2
              unfold Fits at hf
              unfold tail at ht htl
              split at ht <;> omega
        · rw [show s.c.k.stop = true from h] at hs; contradiction
  · have hE' : s.c.k.eor = false := by simpa using hE
    have hm := e.more hE'
    have : s.given.length ≤ due s.given s.got s.counted := by unfold due; omega
    refine ⟨by omega, fun h => ?_⟩
    exact absurd (v.stp h).1 hE

/-- The words on their way from main storage to the device: in the register C, the register B, and
local storage. -/
def Wr.waiting (s : Wr) : List W :=
  (if s.c.cFull then [s.c.cReg] else []) ++
    ((if s.c.bFull then [s.c.bReg] else []) ++ (if s.c.lsFull then [s.ls] else []))

/-- **C140** (partial: no data chaining; the device does not ask for a byte in the cycle of the
race shown in `C140_violated_cut` and `C140_violated_twice`). What the device has got is a beginning of
the bytes of the words fetched from main storage, taken from left to right from the first byte position
on. -/
theorem C140_prefix_partial {N p i : Nat} {s t : Wr} (b : s.Begin N p) (r : Wr.Run N p i s t) :
    t.sent <+: (flat t.given).drop p := (good_run b r).w.dead

/-- **C140** (partial: as above). While the transfer goes on nothing is lost: what was sent and what is
on its way are together all that was fetched. -/
theorem C140_write_partial {N p i : Nat} {s t : Wr} (b : s.Begin N p) (r : Wr.Run N p i s t)
    (hs : t.c.ifStop = false) (ho : t.over = false) :
    t.sent ++ (flat t.waiting).drop (pos t.c.gp) = (flat t.given).drop p :=
  (good_run b r).w.live hs ho

/-- **C140** (partial: as above). When the channel stops, the device has got exactly the bytes of the
count; and never more. -/
theorem C140_exact_partial {N p i : Nat} {s t : Wr} (b : s.Begin N p) (r : Wr.Run N p i s t)
    (ho : t.over = false) :
    t.sent.length ≤ N ∧ (t.c.ifStop = true → t.sent = ((flat t.given).drop p).take N) := by
  obtain ⟨h1, h2⟩ := good_len (good_run b r) ho
  refine ⟨h1, fun h => ?_⟩
  rw [← h2 h]
  exact List.prefix_iff_eq_take.mp (C140_prefix_partial b r)

/-- The number of ones in a byte. -/
def ones (b : B) : Nat := ((List.range 8).filter b.getLsbD).length

theorem oddPar_odd : ∀ b : B, (ones b + (if oddPar b then 1 else 0)) % 2 = 1 := by decide +kernel

/-- **C140** (partial: as above). Every byte is sent with odd parity, and none after the channel has
stopped. -/
theorem C140_parity_partial {N p i : Nat} {s t : Wr} (b : s.Begin N p) (r : Wr.Run N p i s t) {n : In}
    {ga gw : Glob} (h : (WrEv.cycle n ga gw).Ok N p i t)
    (ha : accepts n t.c (cycled i n ga gw t.c) = true) :
    t.c.ifStop = false ∧ (ones (cycled i n ga gw t.c).busOut +
      (if (cycled i n ga gw t.c).busPar then 1 else 0)) % 2 = 1 := by
  obtain ⟨h1, h2⟩ := (good_cycle (good_run b r) h).2 ha
  exact ⟨h1, by rw [h2]; exact oddPar_odd _⟩

/-! ### A run, and what happens without the condition on the device -/

instance (N p i : Nat) (s : Wr) (e : WrEv) : Decidable (e.Ok N p i s) := by
  cases e <;> unfold WrEv.Ok <;> infer_instance

/-- Plays events as long as they are allowed. -/
def Wr.play (N p i : Nat) (s : Wr) : List WrEv → Option Wr
  | [] => some s
  | e :: es => if e.Ok N p i s then (s.step i e).play N p i es else none

theorem Wr.play_run {N p i : Nat} {es : List WrEv} : ∀ {s t u : Wr}, Wr.Run N p i u s →
    s.play N p i es = some t → Wr.Run N p i u t := by
  induction es with
  | nil => intro s t u r h; cases h; exact r
  | cons e es ih =>
    intro s t u r h
    unfold Wr.play at h
    split at h
    · rename_i hok; exact ih (Wr.Run.step e r hok) h
    · contradiction

/-- All conditions but the one that the device does not ask for a byte between the test of the count
and the arrival of the last word. -/
def WrEv.OkBut (N p i : Nat) (s : Wr) : WrEv → Prop
  | .cycle n ga gw =>
    Writing (began i ga s.c) ∧ n.t.srv = s.c.tags.srv ∧ (n.t.srvIn && n.t.staIn) = false ∧
      (s.over = true → n.t.srvIn = false) ∧
      (gives (began i ga s.c) gw = true → s.got = false ∧ gw.ch = i ∧ s.counted = true) ∧
      ((began i ga s.c).chpos = 8 → gw.last = true →
        s.got = true ∨ gives (began i ga s.c) gw = true) ∧
      ((began i ga s.c).chpos = 0x400 → gw.last = true → gw.aob = s.ls)
  | .count aob => (WrEv.count aob).Ok N p i s

instance (N p i : Nat) (s : Wr) (e : WrEv) : Decidable (e.OkBut N p i s) := by
  cases e <;> unfold WrEv.OkBut <;> infer_instance

theorem WrEv.ok_iff {N p i : Nat} {s : Wr} {n : In} {ga gw : Glob} :
    (WrEv.cycle n ga gw).Ok N p i s ↔ (WrEv.cycle n ga gw).OkBut N p i s ∧
      ((began i ga s.c).chpos = 8 → s.got = false → s.c.eor = true →
        gives (began i ga s.c) gw = false → n.t.srvIn = false) :=
  ⟨fun ⟨a, b, c, d, e, f, g, h⟩ => ⟨⟨a, b, c, d, f, g, h⟩, e⟩,
   fun ⟨⟨a, b, c, d, f, g, h⟩, e⟩ => ⟨a, b, c, d, e, f, g, h⟩⟩

def Wr.playBut (N p i : Nat) (s : Wr) : List WrEv → Option Wr
  | [] => some s
  | e :: es => if e.OkBut N p i s then (s.step i e).playBut N p i es else none

/-- The device asks for a byte, and drops the request. -/
def wants : List WrEv := [.cycle ⟨inT true false, 0, true⟩ {} {}, .cycle ⟨inT false true, 0, true⟩ {} {}]

/-- Nothing happens, or one signal of the microprogram. -/
def micro (g : Glob) : WrEv := .cycle quietIn {} g

/-- Routine `.WFCH` up to the test of the count, and after it. -/
def fetchA (r : W) : List WrEv :=
  [micro {}, micro { breakOut := true, dtc2 := true }, .count r]
def fetchB (w : W) : List WrEv :=
  [micro { breakOut := true, dtc2 := true }, micro { breakOut := true, dtc2 := true, aob := w },
   micro { last := true }]

/-- The same, the device asks for a byte in the cycle in which the count is tested. -/
def fetchRace (w : W) : List WrEv :=
  [.cycle ⟨inT true false, 0, true⟩ {} { breakOut := true, dtc2 := true },
   .cycle ⟨inT false true, 0, true⟩ {} { breakOut := true, dtc2 := true, aob := w },
   micro { last := true }]

def writeStart (p : B) : Wr := { c := { op := 1, gp := p <<< 5, tags := { opr := true } } }

theorem writeStart_begin : (writeStart 1).Begin 6 1 :=
  ⟨by decide, by decide, by decide, rfl, rfl, rfl, rfl, rfl, rfl, rfl, rfl, by decide, by decide, rfl,
    rfl, rfl, rfl, rfl⟩

def wrSeen (o : Option Wr) : Option (List B × List W × Bool × Bool) :=
  o.map (fun t => (t.sent, t.given, t.c.ifStop, t.c.tags.cmd))

/-- The device asks once more; the channel answers with command out when it has stopped. -/
def wantsMore : WrEv := .cycle ⟨inT true false, 0, true⟩ {} {}

/-- Six bytes are written, from the second byte of a word on. -/
theorem C140_example : wrSeen ((writeStart 1).play 6 1 0 (fetchA 3 ++ fetchB 0x11223344 ++ wants ++
    wants ++ fetchA 0xffffffff ++ fetchB 0xaabbccdd ++ wants ++ wants ++ wants ++ wants ++ [wantsMore])) =
    some ([0x22, 0x33, 0x44, 0xaa, 0xbb, 0xcc], [0x11223344, 0xaabbccdd], true, true) := by
  decide +kernel

/-- **C140** is violated: eight bytes are to be written. The device asks for the fourth byte of the
first word in the very cycle in which the microprogram finds that the second word, which comes in the
next cycle, is the last one. The channel takes the first word for the last one: it stops, and answers the next request
with command out. The second word is never sent. -/
theorem C140_violated_cut : wrSeen ((writeStart 0).playBut 8 0 0 (fetchA 4 ++ fetchB 0x11223344 ++
    wants ++ wants ++ wants ++ fetchA 0 ++ fetchRace 0xaabbccdd ++ [wantsMore])) =
    some ([0x11, 0x22, 0x33, 0x44], [0x11223344, 0xaabbccdd], true, true) := by decide +kernel

/-- **C140** is violated: six bytes are to be written, and the device asks at the same moment. The
first word stays in the channel and is sent a second time, so that the device gets ten bytes. -/
theorem C140_violated_twice : wrSeen ((writeStart 0).playBut 6 0 0 (fetchA 2 ++ fetchB 0x11223344 ++
    wants ++ wants ++ wants ++ fetchA 0xfffffffe ++ fetchRace 0xaabbccdd ++ wants ++ wants ++
    wants ++ wants ++ wants ++ wants ++ [wantsMore])) =
    some ([0x11, 0x22, 0x33, 0x44, 0x11, 0x22, 0x33, 0x44, 0xaa, 0xbb], [0x11223344, 0xaabbccdd], true,
      true) := by decide +kernel

end Verif.Sel50
