import Verif.Sel50.Viol

/-!
# Writing on a selector channel

A specification of which bytes a device gets, as a run of events of the device and of the
microprogram, and the invariant behind it.
-/

namespace Verif.Sel50

/-- The bytes of a word from left to right, and of words. -/
def bytesOf (w : W) : List B := [getB w 3, getB w 2, getB w 1, getB w 0]
def flat (ws : List W) : List B := ws.flatMap bytesOf

/-- A channel writing, and what has become of the words. -/
structure Wr where
  c : Chan
  /-- the word of local storage in which a word waits for the channel -/
  ls : W := 0
  /-- the words the microprogram has fetched from main storage and given to the channel -/
  given : List W := []
  /-- the bytes the device has got -/
  sent : List B := []
  /-- the word has been given in the running routine `.WFCH` -/
  got : Bool := false
  /-- the microprogram has counted this word in the running routine `.WFCH` -/
  counted : Bool := false
  /-- the device has presented status, or has left -/
  over : Bool := false

/-- What happens. `cycle`: a cycle of the machine, as in `RdEv`. `count`: the microinstruction
`LSWDTEST` of `.WFCH`, with the count on the adder latch. -/
inductive WrEv where
  | cycle (n : In) (ga gw : Glob)
  | count (aob : W)

/-- The third signal of routine `.WFCH`: a word is given to the channel. -/
def gives (b : Chan) (gw : Glob) : Bool := b.chpos == 8 && b.chclk == 2 && gw.dtc2

/-- A cycle. The word given goes to B, or, when B is full, the microprogram has put it in local
storage. -/
def Wr.step (i : Nat) (s : Wr) : WrEv → Wr
  | .cycle n ga gw =>
    { c := cycled i n ga gw s.c,
      ls := if gives (began i ga s.c) gw && (began i ga s.c).bFull then gw.aob else s.ls,
      given := s.given ++ (if gives (began i ga s.c) gw then [gw.aob] else []),
      sent := s.sent ++ (if accepts n s.c (cycled i n ga gw s.c) then [(cycled i n ga gw s.c).busOut]
                         else []),
      got := (s.got || gives (began i ga s.c) gw) && !gw.last,
      counted := s.counted && !gw.last,
      over := s.over || n.t.staIn || !n.t.oprIn }
  | .count aob => { s with c := lastWord aob s.c, counted := true }

/-- Writing without data chaining: no CCW is being fetched, no unit selected. -/
def Writing (c : Chan) : Prop :=
  c.op = 1 ∧ c.cd = false ∧ c.polling = false ∧
    (c.chpos = 0 ∨ c.chpos = 0x400 ∨ c.chpos = 0x08 ∨ c.chpos = 0x04)
instance (c : Chan) : Decidable (Writing c) := by unfold Writing; infer_instance

/-- The end position lies behind byte `p` of a word. -/
def Fits (p : Nat) (gp : B) : Prop := last gp = 0 ∨ p < last gp
instance (p gp) : Decidable (Fits p gp) := by unfold Fits; infer_instance

/-- What is asked of the environment; `N` is the count of the CCW, `p` the first byte position. The
device does not present data and status at once, and asks for nothing after it has presented status. It
does not ask for a byte between the moment at which the microprogram finds that the word it fetches is
the last one and the arrival of this word. Routine `.WFCH` first counts: what is left of the count when
this word is taken off (the first word has `4 - p` bytes to send) stands in the latch, with the borrow in
bit 15. Then it gives one word to this channel, and then it ends. Routine `.LSWR` brings the word of
local storage. -/
def WrEv.Ok (N p i : Nat) (s : Wr) : WrEv → Prop
  | .cycle n ga gw =>
    Writing (began i ga s.c) ∧ n.t.srv = s.c.tags.srv ∧ (n.t.srvIn && n.t.staIn) = false ∧
      (s.over = true → n.t.srvIn = false) ∧
      ((began i ga s.c).chpos = 8 → s.got = false → s.c.eor = true →
        gives (began i ga s.c) gw = false → n.t.srvIn = false) ∧
      (gives (began i ga s.c) gw = true → s.got = false ∧ gw.ch = i ∧ s.counted = true) ∧
      ((began i ga s.c).chpos = 8 → gw.last = true →
        s.got = true ∨ gives (began i ga s.c) gw = true) ∧
      ((began i ga s.c).chpos = 0x400 → gw.last = true → gw.aob = s.ls)
  | .count aob => s.c.chpos = 8 ∧ s.c.chclk ≠ 0 ∧ s.got = false ∧ s.counted = false ∧
      ((aob.toNat : Int) - ((N + p : Int) - 4 * (s.given.length + 1))) % 131072 = 0

inductive Wr.Run (N p i : Nat) : Wr → Wr → Prop where
  | refl (s) : Wr.Run N p i s s
  | step {s t} (e : WrEv) : Wr.Run N p i s t → e.Ok N p i t → Wr.Run N p i s (t.step i e)

/-! ### The invariant -/

/-- What matters of a channel. -/
structure K where
  op : B
  cd : Bool
  stop : Bool
  eor : Bool
  cf : Bool
  bf : Bool
  lf : Bool
  gp : B
  cr : W
  br : W
  pos : BitVec 16
  req : B
  clk : Nat

def Chan.k (c : Chan) : K :=
  ⟨c.op, c.cd, c.ifStop, c.eor, c.cFull, c.bFull, c.lsFull, c.gp, c.cReg, c.bReg, c.chpos, c.chreq,
    c.chclk⟩

/-- The words on their way. -/
def K.words (k : K) (ls : W) : List W :=
  (if k.cf then [k.cr] else []) ++ ((if k.bf then [k.br] else []) ++ (if k.lf then [ls] else []))

/-- Bytes of the last word behind the end position. -/
def tail (gp : B) : Nat := if last gp = 0 then 0 else 4 - last gp

structure WInv (p : Nat) (k : K) (ls : W) (given : List W) (sent : List B) (got over : Bool) :
    Prop where
  p4 : p < 4
  op : k.op = 1
  cd : k.cd = false
  req : k.req = 0x80 → k.lf = false ∧ k.pos ≠ 8 ∧ k.eor = false
  w8 : k.pos = 8 → got = false → k.lf = false
  g8 : got = true → k.pos = 8 ∧ k.clk = 2
  p400 : k.pos = 0x400 → over = false → k.lf = true ∧ k.bf = false
  live : k.stop = false → over = false →
    sent ++ (flat (k.words ls)).drop (pos k.gp) = (flat given).drop p
  st1 : k.stop = false → over = false → (k.words ls).length ≤ given.length
  st2 : k.stop = false → over = false → given = [] → pos k.gp = p
  st3 : k.stop = false → over = false → k.cf = false →
    pos k.gp = 0 ∨ ((k.words ls).length = given.length ∧ pos k.gp = p)
  en : k.stop = false → over = false → k.eor = true → (k.pos = 8 → got = true) →
    k.words ls ≠ [] ∧ (2 ≤ given.length ∨ Fits p k.gp) ∧
      (k.cf = true → k.bf = false → k.lf = false → Fits (pos k.gp) k.gp)
  win : k.eor = true → k.pos = 8 → got = false → given = [] → Fits p k.gp
  dead : sent <+: (flat given).drop p
  stp : k.stop = true → k.eor = true ∧ (k.pos = 8 → got = true) ∧
    sent.length + p + tail k.gp = 4 * given.length

theorem flat_length (ws : List W) : (flat ws).length = 4 * ws.length := by
  induction ws with
  | nil => rfl
  | cons w ws ih =>
    have : flat (w :: ws) = bytesOf w ++ flat ws := rfl
    rw [this, List.length_append, ih, List.length_cons]
    show 4 + _ = _
    omega

theorem flat_append (a b : List W) : flat (a ++ b) = flat a ++ flat b := by
  unfold flat; rw [List.flatMap_append]

theorem drop_byte (w : W) (r : List B) : ∀ p, p < 4 →
    (bytesOf w ++ r).drop p = getB w (3 - p) :: (bytesOf w ++ r).drop (p + 1)
  | 0, _ => rfl
  | 1, _ => rfl
  | 2, _ => rfl
  | 3, _ => rfl
  | n + 4, h => by omega

theorem pos_lt : ∀ gp : B, pos gp < 4 ∧ last gp < 4 := by decide +kernel
theorem pos_next : ∀ gp : B, pos (gpNext gp) = (if pos gp = 3 then 0 else pos gp + 1) ∧
    last (gpNext gp) = last gp := by decide +kernel
theorem pos_zero : ∀ gp : B, gp &&& 0x60 = 0 ↔ pos gp = 0 := by decide +kernel
theorem at_last : ∀ gp : B, atLast gp = (pos gp == last gp) := by decide +kernel

/-- The channel after a byte has been put on the bus. -/
def K.byte (k : K) : K :=
  if k.eor && !k.bf && !k.lf then
    if atLast (gpNext k.gp) then { k with gp := gpNext k.gp, cf := false, stop := true }
    else { k with gp := gpNext k.gp }
  else if gpNext k.gp &&& 0x60 = 0 then { k with gp := gpNext k.gp, cf := false }
  else { k with gp := gpNext k.gp }

theorem WInv.byte {p : Nat} {k : K} {ls : W} {given : List W} {sent : List B} {got over : Bool}
    (v : WInv p k ls given sent got over) (ho : over = false) (hs : k.stop = false)
    (hc : k.cf = true) (hw : k.eor = true → k.pos = 8 → got = true) :
    WInv p k.byte ls given (sent ++ [getB k.cr (byteNo k.gp)]) got over := by
  obtain ⟨hp4, hl4⟩ := pos_lt k.gp
  obtain ⟨np, nl⟩ := pos_next k.gp
  have live := v.live hs ho
  generalize hrest : (if k.bf then [k.br] else []) ++ (if k.lf then [ls] else []) = rest
  have hwords : k.words ls = k.cr :: rest := by
    unfold K.words; rw [hc, hrest]; rfl
  have hlen := v.st1 hs ho
  have hg : given ≠ [] := by
    intro h; rw [h, hwords] at hlen; simp at hlen
  rw [hwords] at live hlen
  have hfl : flat (k.cr :: rest) = bytesOf k.cr ++ flat rest := rfl
  rw [hfl, drop_byte _ _ _ hp4] at live
  have hb : getB k.cr (byteNo k.gp) = getB k.cr (3 - pos k.gp) := rfl
  rw [hb]
  generalize getB k.cr (3 - pos k.gp) = b at live ⊢
  have live' : (sent ++ [b]) ++ (bytesOf k.cr ++ flat rest).drop (pos k.gp + 1) =
      (flat given).drop p := by
    rw [← live]; simp
  have dead : sent ++ [b] <+: (flat given).drop p := ⟨_, live'⟩
  have hgl : 1 ≤ given.length := by
    cases given with
    | nil => exact absurd rfl hg
    | cons a l => simp
  have hlive : (sent ++ [b]).length + (bytesOf k.cr ++ flat rest).length - (pos k.gp + 1) =
      4 * given.length - p := by
    have := congrArg List.length live'
    rw [List.length_append, List.length_drop, List.length_drop, flat_length] at this
    have h4 : 4 ≤ (bytesOf k.cr ++ flat rest).length := by
      rw [List.length_append]; exact Nat.le_add_right 4 _
    omega
  have wd1 : ∀ g : B, ({ k with gp := g } : K).words ls = k.cr :: rest := fun g => hwords
  have wd0 : ∀ (g : B), ({ k with gp := g, cf := false } : K).words ls = rest := fun g => by
    show (if (false = true) then [k.cr] else []) ++ _ = rest
    rw [← hrest]; rfl
  -- the word goes on
  have go : pos k.gp ≠ 3 → (k.eor = true → (k.pos = 8 → got = true) → k.bf = false → k.lf = false →
      Fits (pos k.gp + 1) k.gp) →
      WInv p { k with gp := gpNext k.gp } ls given (sent ++ [b]) got over := by
    intro h3 hf
    rw [if_neg h3] at np
    have ft : ∀ q, Fits q (gpNext k.gp) ↔ Fits q k.gp := fun q => by unfold Fits; rw [nl]
    refine ⟨v.p4, v.op, v.cd, v.req, v.w8, v.g8, v.p400, ?_, ?_, ?_, ?_, ?_, ?_, dead, ?_⟩
    · intro _ _
      rw [wd1]
      show _ ++ List.drop (pos (gpNext k.gp)) _ = _
      rw [np]; exact live'
    · intro _ _; rw [wd1]; exact hlen
    · intro _ _ h; exact absurd h hg
    · intro _ _ h
      have h' : k.cf = false := h
      rw [hc] at h'; contradiction
    · intro h1 h2 h3 h4
      refine ⟨by rw [wd1]; simp, ?_, ?_⟩
      · rcases (v.en h1 h2 h3 h4).2.1 with h | h
        · exact .inl h
        · exact .inr ((ft p).2 h)
      · intro _ h6 h7
        show Fits (pos (gpNext k.gp)) (gpNext k.gp)
        rw [np]
        exact (ft _).2 (hf h3 h4 h6 h7)
    · intro h1 h2 h3 h4; exact absurd h4 hg
    · intro h
      have h' : k.stop = true := h
      rw [hs] at h'; contradiction
  unfold K.byte
  by_cases hlast : (k.eor && !k.bf && !k.lf) = true
  · rw [if_pos hlast]
    have he : k.eor = true ∧ k.bf = false ∧ k.lf = false := by
      simp at hlast; exact ⟨hlast.1.1, hlast.1.2, hlast.2⟩
    have hw' := hw he.1
    have hfit := (v.en hs ho he.1 hw').2.2 hc he.2.1 he.2.2
    have hrest0 : rest = [] := by rw [← hrest, he.2.1, he.2.2]; rfl
    rw [at_last, np, nl]
    by_cases ha : ((if pos k.gp = 3 then 0 else pos k.gp + 1) == last k.gp) = true
    · rw [if_pos ha]
      have ha' := eq_of_beq ha
      refine ⟨v.p4, v.op, v.cd, v.req, v.w8, v.g8, v.p400, ?_, ?_, ?_, ?_, ?_, ?_, dead, ?_⟩
      · intro h; exact nomatch h
      · intro h; exact nomatch h
      · intro h; exact nomatch h
      · intro h; exact nomatch h
      · intro h; exact nomatch h
      · intro h1 h2 h3 h4; exact absurd h4 hg
      · intro _
        refine ⟨he.1, hw', ?_⟩
        show _ + tail (gpNext k.gp) = _
        have ht : tail (gpNext k.gp) = 3 - pos k.gp := by
          unfold tail; rw [nl, ← ha']
          by_cases h3 : pos k.gp = 3
          · rw [if_pos h3, if_pos rfl]; omega
          · rw [if_neg h3, if_neg (by omega)]; omega
        rw [ht]
        rw [hrest0] at hlive
        have h4 : (bytesOf k.cr ++ flat []).length = 4 := rfl
        rw [h4] at hlive
        have := v.p4
        omega
    · rw [if_neg ha]
      have ha' : (if pos k.gp = 3 then 0 else pos k.gp + 1) ≠ last k.gp := fun h => ha (beq_iff_eq.2 h)
      have h3 : pos k.gp ≠ 3 := by
        intro h3
        rw [if_pos h3] at ha'
        rcases hfit with h | h
        · exact ha' h.symm
        · omega
      rw [if_neg h3] at ha'
      refine go h3 (fun _ _ _ _ => ?_)
      rcases hfit with h | h
      · exact .inl h
      · exact .inr (by omega)
  · rw [if_neg hlast]
    have hno : k.eor = true → k.bf = false → k.lf = false → False := by
      intro h1 h2 h3; exact hlast (by rw [h1, h2, h3]; rfl)
    by_cases hz : gpNext k.gp &&& 0x60 = 0
    · rw [if_pos hz]
      have hz' := (pos_zero _).1 hz
      have h3 : pos k.gp = 3 := by
        rw [np] at hz'
        by_cases h : pos k.gp = 3
        · exact h
        · rw [if_neg h] at hz'; omega
      have ft : ∀ q, Fits q (gpNext k.gp) ↔ Fits q k.gp := fun q => by unfold Fits; rw [nl]
      refine ⟨v.p4, v.op, v.cd, v.req, v.w8, v.g8, v.p400, ?_, ?_, ?_, ?_, ?_, ?_, dead, ?_⟩
      · intro _ _
        rw [wd0]
        show _ ++ List.drop (pos (gpNext k.gp)) _ = _
        rw [hz', ← live', h3]
        rfl
      · intro _ _; rw [wd0]; simp at hlen; omega
      · intro _ _ h; exact absurd h hg
      · intro _ _ _; exact .inl hz'
      · intro h1 h2 h3 h4
        refine ⟨?_, ?_, fun h => nomatch h⟩
        · rw [wd0, ← hrest]
          intro h
          cases hb : k.bf with
          | true => rw [hb] at h; simp at h
          | false =>
            cases hl : k.lf with
            | true => rw [hl] at h; simp at h
            | false => exact hno h3 hb hl
        rcases (v.en h1 h2 h3 h4).2.1 with h | h
        · exact .inl h
        · exact .inr ((ft p).2 h)
      · intro h1 h2 h3 h4; exact absurd h4 hg
      · intro h
        have h' : k.stop = true := h
        rw [hs] at h'; contradiction
    · rw [if_neg hz]
      have h3 : pos k.gp ≠ 3 := by
        intro h3
        rw [if_pos h3] at np
        exact hz ((pos_zero _).2 np)
      exact go h3 (fun h1 _ h2 h3 => (hno h1 h2 h3).elim)

end Verif.Sel50
