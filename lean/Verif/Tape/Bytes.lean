import Verif.Tape.Model
/-! # The buffer shows the file: byte access refines direct access to a list of bytes -/
namespace Verif.Tape

@[simp] theorem bind_ok {α β : Type} (a : α) (f : α → Res β) : (Res.ok a >>= f) = f a := rfl
@[simp] theorem bind_oob {α β : Type} (f : α → Res β) : (Res.oob >>= f) = Res.oob := rfl
@[simp] theorem bind_hang {α β : Type} (f : α → Res β) : (Res.hang >>= f) = Res.hang := rfl
@[simp] theorem pure_ok {α : Type} (a : α) : (pure a : Res α) = Res.ok a := rfl

theorem W_eq : W = 32768 := by unfold W; rfl

theorem W_pos : 0 < W := by rw [W_eq]; decide

/-- `c` with the bytes `bs` written at `p`. -/
def over (c : List Nat) (p : Nat) (bs : List Nat) : List Nat := c.take p ++ bs ++ c.drop (p + bs.length)

/-- The drive shows content `c` and stands at byte `p`. -/
structure Rep (b : Buf) (c : List Nat) (p : Nat) : Prop where
  opened : b.opened = true
  wrt : b.dirty = true → b.writable = true
  blen : b.buffer.length = W
  le1 : b.posBuff ≤ b.lenBuff
  le2 : b.lenBuff ≤ W
  le3 : b.pos ≤ b.file.length
  pat : p = b.pos + b.posBuff
  cont : c = b.file.take b.pos ++ b.buffer.take b.lenBuff ++ b.file.drop (b.pos + b.lenBuff)
  clean : b.dirty = false → c = b.file

theorem Rep.len {b c p} (h : Rep b c p) : b.pos + b.lenBuff ≤ c.length := by
  have := h.le3; have := h.le2; have := h.blen
  rw [h.cont]; simp only [List.length_append, List.length_take, List.length_drop]; omega

theorem Rep.pos_le {b c p} (h : Rep b c p) : p ≤ c.length := by
  have := h.len; have := h.le1; have := h.pat; omega

/-- A byte inside the window. -/
theorem Rep.win {b c p} (h : Rep b c p) (k : Nat) (hk : k < b.lenBuff) : c[b.pos + k]? = b.buffer[k]? := by
  have h2 := h.le2; have h3 := h.le3; have hb := h.blen
  rw [h.cont, List.append_assoc, List.getElem?_append_right (by rw [List.length_take]; omega)]
  rw [List.length_take, Nat.min_eq_left h3]
  rw [List.getElem?_append_left (by simp only [List.length_take]; omega)]
  simp [show b.pos + k - b.pos = k by omega, hk]

theorem Rep.flush {b c p} (h : Rep b c p) (hd : b.dirty = true) :
    flush b = some { b with file := c, dirty := false } := by
  have h3 := h.le3
  have hw : wr b.file b.pos (b.buffer.take b.lenBuff) = c := by
    unfold wr
    split
    · rename_i he
      have hl : b.lenBuff = 0 := by
        have := congrArg List.length he
        have := h.le2; have := h.blen; have := W_pos
        simp only [List.length_take, List.length_nil] at *; omega
      rw [h.cont, hl]; simp
    · have hl : (b.buffer.take b.lenBuff).length = b.lenBuff := by
        have := h.le2; have := h.blen
        rw [List.length_take]; omega
      rw [hl, List.take_append_of_le_length h3, ← h.cont]
  simp only [Verif.Tape.flush, h.wrt hd, if_true, hw]

theorem Rep.flushed {b c p} (h : Rep b c p) : Rep { b with file := c, dirty := false } c p := by
  have hl := h.len; have h2 := h.le2; have hb := h.blen
  refine ⟨h.opened, by simp, h.blen, h.le1, h.le2, ?_, h.pat, ?_, fun _ => rfl⟩
  · show b.pos ≤ c.length; omega
  · show c = c.take b.pos ++ b.buffer.take b.lenBuff ++ c.drop (b.pos + b.lenBuff)
    have e1 : c.take b.pos = b.file.take b.pos := by
      rw [h.cont, List.append_assoc, List.take_append_of_le_length (by simp [h.le3])]
      rw [List.take_take, Nat.min_self]
    have e2 : c.drop (b.pos + b.lenBuff) = b.file.drop (b.pos + b.lenBuff) := by
      conv => lhs; rw [h.cont]
      rw [List.drop_append_of_le_length (by simp only [List.length_append, List.length_take]; have := h.le3; omega)]
      rw [List.drop_of_length_le (by simp only [List.length_append, List.length_take]; omega)]
      simp
    rw [e1, e2]; exact h.cont

/-- Loading a window of a clean buffer. -/
theorem Rep.fill {b c p} (h : Rep b c p) (hd : b.dirty = false) (q k : Nat) (hq : q + k ≤ c.length) (hk : k ≤ W) :
    Rep { fill b q with posBuff := k } c (q + k) := by
  have hf := h.clean hd; have hb := h.blen
  subst hf
  refine ⟨h.opened, fun e => h.wrt e, ?_, ?_, ?_, ?_, rfl, ?_, fun _ => rfl⟩
  · show (((b.file.drop q).take W ++ b.buffer.drop ((b.file.drop q).take W).length)).length = W
    simp only [List.length_append, List.length_take, List.length_drop]; omega
  · show k ≤ ((b.file.drop q).take W).length
    simp only [List.length_take, List.length_drop]; omega
  · show ((b.file.drop q).take W).length ≤ W
    simp only [List.length_take]; omega
  · show q ≤ b.file.length; omega
  · show b.file = b.file.take q ++ ((b.file.drop q).take W ++ b.buffer.drop ((b.file.drop q).take W).length).take
        ((b.file.drop q).take W).length ++ b.file.drop (q + ((b.file.drop q).take W).length)
    rw [List.take_left']
    · rw [List.append_assoc, ← List.drop_drop]
      have : (b.file.drop q).drop ((b.file.drop q).take W).length = (b.file.drop q).drop W := by
        rw [List.length_take]
        by_cases hl : W ≤ (b.file.drop q).length
        · rw [Nat.min_eq_left hl]
        · rw [Nat.min_eq_right (by omega), List.drop_of_length_le (Nat.le_refl _),
            List.drop_of_length_le (by omega)]
      rw [this, List.take_append_drop, List.take_append_drop]
    · rfl

theorem fill_len (b : Buf) (q : Nat) : (fill b q).lenBuff = min W (b.file.length - q) := by
  simp [fill]

theorem fill_bot (b : Buf) (q : Nat) : (fill b q).bot = b.bot := rfl
theorem fill_writable (b : Buf) (q : Nat) : (fill b q).writable = b.writable := rfl
theorem fill_dirty (b : Buf) (q : Nat) : (fill b q).dirty = b.dirty := rfl

theorem Rep.refill {b c p} (h : Rep b c p) (hp : b.posBuff ≥ b.lenBuff ∨ b.lenBuff = 0) :
    ∃ b', refill b = some b' ∧ Rep b' c p ∧ b'.posBuff = 0 ∧ b'.lenBuff = min W (c.length - p) ∧
      b'.eot = b.eot ∧ b'.bot = b.bot ∧ b'.writable = b.writable ∧ b'.dirty = false := by
  have hpp : p = b.pos + b.lenBuff := by have := h.pat; have := h.le1; omega
  have hl := h.pos_le
  by_cases hd : b.dirty = true
  · refine ⟨{ Verif.Tape.fill { b with file := c, dirty := false } (b.pos + b.lenBuff) with posBuff := 0 },
      by unfold Verif.Tape.refill; rw [if_pos hd, h.flush hd], ?_, rfl, ?_, rfl, rfl, rfl, rfl⟩
    · have := h.flushed.fill rfl (b.pos + b.lenBuff) 0 (by omega) (by omega)
      rw [hpp]; exact this
    · rw [hpp]; simp [Verif.Tape.fill]
  · have hd : b.dirty = false := by simpa using hd
    refine ⟨{ Verif.Tape.fill b (b.pos + b.lenBuff) with posBuff := 0 },
      by unfold Verif.Tape.refill; rw [if_neg (by simp [hd])], ?_, rfl, ?_, rfl, rfl, rfl, hd⟩
    · have := h.fill hd (b.pos + b.lenBuff) 0 (by omega) (by omega)
      rw [hpp]; exact this
    · rw [hpp, h.clean hd]; simp [Verif.Tape.fill]

theorem Rep.take {b c p} (h : Rep b c p) (hp : b.posBuff < b.lenBuff) :
    ∃ x b', takeByte b = .ok (.ok, x, b') ∧ c[p]? = some x ∧ Rep b' c (p + 1) ∧
      b' = { b with posBuff := b.posBuff + 1 } := by
  have h2 := h.le2; have hb := h.blen
  have hw := h.win b.posBuff hp
  rw [← h.pat] at hw
  have hs : b.buffer[b.posBuff]? = some (b.buffer[b.posBuff]'(by omega)) := List.getElem?_eq_getElem _
  refine ⟨b.buffer[b.posBuff]'(by omega), _, ?_, by rw [hw, hs], ?_, rfl⟩
  · unfold takeByte; rw [hs]
  · exact ⟨h.opened, h.wrt, h.blen, hp, h.le2, h.le3, by have := h.pat; simp; omega, h.cont, h.clean⟩

/-- tape_read_byte delivers the byte at the position and advances. -/
theorem readByte_ok {b c p} (h : Rep b c p) (d : Nat) (hp : p < c.length) :
    ∃ b', readByte b d = .ok (.ok, c[p], b') ∧ Rep b' c (p + 1) ∧ b'.eot = b.eot ∧ b'.bot = b.bot ∧
      b'.writable = b.writable ∧ (b'.dirty = b.dirty ∨ b'.dirty = false) := by
  by_cases hc : b.posBuff ≥ b.lenBuff ∨ b.lenBuff = 0
  · obtain ⟨b1, e1, h1, p1, l1, q1, q2, q3, q4⟩ := h.refill hc
    have hl1 : 0 < b1.lenBuff := by rw [l1]; have := W_pos; omega
    obtain ⟨x, b2, e2, ex, h2, eb⟩ := h1.take (by omega)
    refine ⟨b2, ?_, h2, by rw [eb, ← q1], by rw [eb, ← q2], by rw [eb, ← q3], by right; rw [eb, ← q4]⟩
    have hx : c[p] = x := by
      have := List.getElem?_eq_getElem hp; rw [ex] at this; exact (Option.some.inj this).symm
    unfold readByte
    rw [if_neg (by simp [h.opened]), if_pos hc, e1]
    show (if b1.lenBuff = 0 then _ else _) = _
    rw [if_neg (by omega), e2, hx]
  · obtain ⟨x, b2, e2, ex, h2, eb⟩ := h.take (by omega)
    refine ⟨b2, ?_, h2, by rw [eb], by rw [eb], by rw [eb], by left; rw [eb]⟩
    have hx : c[p] = x := by
      have := List.getElem?_eq_getElem hp; rw [ex] at this; exact (Option.some.inj this).symm
    unfold readByte
    rw [if_neg (by simp [h.opened]), if_neg hc, e2, hx]

/-- At the end it reports end of tape. -/
theorem readByte_end {b c p} (h : Rep b c p) (d : Nat) (hp : p = c.length) :
    ∃ b', readByte b d = .ok (.eot, d, b') ∧ Rep b' c p ∧ b'.eot = true ∧ b'.bot = b.bot ∧
      b'.writable = b.writable ∧ b'.posBuff = 0 ∧ b'.dirty = false := by
  have hc : b.posBuff ≥ b.lenBuff ∨ b.lenBuff = 0 := by have := h.len; have := h.pat; omega
  obtain ⟨b1, e1, h1, p1, l1, q1, q2, q3, q4⟩ := h.refill hc
  have hl1 : b1.lenBuff = 0 := by rw [l1]; omega
  refine ⟨{ b1 with eot := true }, ?_, ?_, rfl, q2, q3, p1, q4⟩
  · unfold readByte
    rw [if_neg (by simp [h.opened]), if_pos hc, e1]
    show (if b1.lenBuff = 0 then _ else _) = _
    rw [if_pos hl1]
  · exact ⟨h1.opened, h1.wrt, h1.blen, h1.le1, h1.le2, h1.le3, h1.pat, h1.cont, h1.clean⟩

theorem peekByte_ok {b c p} (h : Rep b c p) (d : Nat) (hp : p < c.length) :
    ∃ b', peekByte b d = .ok (.ok, c[p], b') ∧ Rep b' c p ∧ b'.eot = b.eot ∧ b'.bot = b.bot ∧
      b'.writable = b.writable ∧ (b'.dirty = b.dirty ∨ b'.dirty = false) ∧ b'.posBuff < W := by
  by_cases hc : b.posBuff ≥ b.lenBuff ∨ b.lenBuff = 0
  · obtain ⟨b1, e1, h1, p1, l1, q1, q2, q3, q4⟩ := h.refill hc
    have hl1 : 0 < b1.lenBuff := by rw [l1]; have := W_pos; omega
    obtain ⟨x, b2, e2, ex, h2, eb⟩ := h1.take (by omega)
    refine ⟨b1, ?_, h1, q1, q2, q3, Or.inr q4, by rw [p1]; exact W_pos⟩
    have hx : c[p] = x := by
      have := List.getElem?_eq_getElem hp; rw [ex] at this; exact (Option.some.inj this).symm
    unfold peekByte
    rw [if_neg (by simp [h.opened]), if_pos hc, e1]
    show (if b1.lenBuff = 0 then _ else _) = _
    rw [if_neg (by omega)]
    unfold takeByte at e2; unfold lookByte
    split at e2 <;> simp_all
  · obtain ⟨x, b2, e2, ex, h2, eb⟩ := h.take (by omega)
    refine ⟨b, ?_, h, rfl, rfl, rfl, Or.inl rfl, by have := h.le2; omega⟩
    have hx : c[p] = x := by
      have := List.getElem?_eq_getElem hp; rw [ex] at this; exact (Option.some.inj this).symm
    unfold peekByte
    rw [if_neg (by simp [h.opened]), if_neg hc]
    unfold takeByte at e2; unfold lookByte
    split at e2 <;> simp_all

theorem peekByte_end {b c p} (h : Rep b c p) (d : Nat) (hp : p = c.length) :
    ∃ b', peekByte b d = .ok (.eot, d, b') ∧ Rep b' c p ∧ b'.eot = b.eot ∧ b'.bot = b.bot ∧
      b'.writable = b.writable ∧ b'.posBuff = 0 ∧ b'.dirty = false := by
  have hc : b.posBuff ≥ b.lenBuff ∨ b.lenBuff = 0 := by have := h.len; have := h.pat; omega
  obtain ⟨b1, e1, h1, p1, l1, q1, q2, q3, q4⟩ := h.refill hc
  have hl1 : b1.lenBuff = 0 := by rw [l1]; omega
  refine ⟨b1, ?_, h1, q1, q2, q3, p1, q4⟩
  unfold peekByte
  rw [if_neg (by simp [h.opened]), if_pos hc, e1]
  show (if b1.lenBuff = 0 then _ else _) = _
  rw [if_pos hl1]

/-! ## Writing -/

/-- The state in which tape_write_byte forgets to advance: the window was read to its last byte and not changed. -/
def CleanEnd (b : Buf) : Prop := b.posBuff = W ∧ b.dirty = false

theorem over_length (c : List Nat) (p : Nat) (bs : List Nat) (hp : p ≤ c.length) :
    (over c p bs).length = max c.length (p + bs.length) := by
  simp only [over, List.length_append, List.length_take, List.length_drop]; omega

theorem over_get (c : List Nat) (p : Nat) (bs : List Nat) (hp : p ≤ c.length) (i : Nat) :
    (over c p bs)[i]? = if i < p then c[i]? else if i < p + bs.length then bs[i - p]? else c[i]? := by
  unfold over
  have hl : (c.take p).length = p := by rw [List.length_take]; omega
  by_cases h1 : i < p
  · rw [if_pos h1, List.append_assoc, List.getElem?_append_left (by omega), List.getElem?_take, if_pos h1]
  · rw [if_neg h1]
    by_cases h2 : i < p + bs.length
    · rw [if_pos h2, List.append_assoc, List.getElem?_append_right (by omega), hl,
        List.getElem?_append_left (by omega)]
    · rw [if_neg h2, List.getElem?_append_right (by simp only [List.length_append]; omega), List.getElem?_drop]
      congr 1; simp only [List.length_append, hl]; omega

theorem over_nil (c : List Nat) (p : Nat) : over c p [] = c := by simp [over]

theorem over_over (c : List Nat) (p : Nat) (a b : List Nat) (hp : p ≤ c.length) :
    over (over c p a) (p + a.length) b = over c p (a ++ b) := by
  apply List.ext_getElem?
  intro i
  rw [over_get _ _ _ (by rw [over_length _ _ _ hp]; omega), over_get _ _ _ hp, over_get _ _ _ hp]
  simp only [List.length_append]
  by_cases h1 : i < p
  · simp [h1, show i < p + a.length by omega]
  · simp only [h1, if_false]
    by_cases h2 : i < p + a.length
    · simp [h2, show i < p + (a.length + b.length) by omega, List.getElem?_append_left (show i - p < a.length by omega)]
    · simp only [h2, if_false]
      by_cases h3 : i < p + a.length + b.length
      · rw [if_pos h3, if_pos (by omega), List.getElem?_append_right (by omega)]; congr 1; omega
      · rw [if_neg h3, if_neg (by omega)]

/-- Overwriting the first bytes of what was just written. -/
theorem over_prev (c : List Nat) (p : Nat) (a b x : List Nat) (hp : p ≤ c.length) (hl : a.length = b.length) :
    over (over c p (a ++ x)) p b = over c p (b ++ x) := by
  apply List.ext_getElem?
  intro i
  rw [over_get _ _ _ (by rw [over_length _ _ _ hp]; omega), over_get _ _ _ hp, over_get _ _ _ hp]
  simp only [List.length_append]
  by_cases h1 : i < p
  · simp [h1]
  · simp only [h1, if_false]
    by_cases h2 : i < p + b.length
    · rw [if_pos h2, if_pos (by omega), List.getElem?_append_left (by omega)]
    · simp only [h2, if_false, hl]
      by_cases h3 : i < p + (b.length + x.length)
      · rw [if_pos h3, if_pos h3, List.getElem?_append_right (by omega), List.getElem?_append_right (by omega), hl]
      · rw [if_neg h3, if_neg h3]

theorem Rep.put {b c p} (h : Rep b c p) (hw : b.writable = true) (hp : b.posBuff < W) (x : Nat) :
    ∃ b', putByte b x = .ok (.ok, b') ∧ Rep b' (over c p [x]) (p + 1) ∧ b'.eot = b.eot ∧ b'.bot = b.bot ∧
      b'.writable = b.writable ∧ b'.dirty = true := by
  have h2 := h.le2; have hb := h.blen; have h1 := h.le1; have h3 := h.le3
  refine ⟨{ b with buffer := b.buffer.set b.posBuff x, posBuff := b.posBuff + 1, dirty := true,
                   lenBuff := if b.posBuff + 1 > b.lenBuff then b.posBuff + 1 else b.lenBuff },
    by unfold putByte; rw [if_pos (by omega)], ?_, rfl, rfl, rfl, rfl⟩
  refine ⟨h.opened, fun _ => hw, by simpa using hb, ?_, ?_, h3, ?_, ?_, by simp⟩
  · show b.posBuff + 1 ≤ if b.posBuff + 1 > b.lenBuff then b.posBuff + 1 else b.lenBuff
    split <;> omega
  · show (if b.posBuff + 1 > b.lenBuff then b.posBuff + 1 else b.lenBuff) ≤ W
    split <;> omega
  · have := h.pat; show p + 1 = b.pos + (b.posBuff + 1); omega
  · have hpl := h.pos_le
    have hpat := h.pat
    apply List.ext_getElem?
    intro i
    rw [over_get _ _ _ hpl]
    generalize hL : (if b.posBuff + 1 > b.lenBuff then b.posBuff + 1 else b.lenBuff) = L
    show _ = (b.file.take b.pos ++ (b.buffer.set b.posBuff x).take L ++ b.file.drop (b.pos + L))[i]?
    have hLW : L ≤ W := by rw [← hL]; split <;> omega
    have hLl : b.lenBuff ≤ L := by rw [← hL]; split <;> omega
    have hLp : b.posBuff < L := by rw [← hL]; split <;> omega
    have hl1 : (b.file.take b.pos).length = b.pos := by rw [List.length_take]; omega
    have hl2 : ((b.buffer.set b.posBuff x).take L).length = L := by
      rw [List.length_take, List.length_set]; omega
    have hl3 : (b.buffer.take b.lenBuff).length = b.lenBuff := by rw [List.length_take]; omega
    simp only [List.length_singleton]
    by_cases q1 : i < b.pos
    · rw [if_pos (by omega), h.cont, List.append_assoc, List.append_assoc,
        List.getElem?_append_left (by omega), List.getElem?_append_left (by omega)]
    · by_cases q2 : i < b.pos + L
      · rw [List.append_assoc (List.take _ _), List.getElem?_append_right (l₁ := List.take _ _) (by omega), hl1,
          List.getElem?_append_left (by omega), List.getElem?_take, if_pos (show i - b.pos < L by omega)]
        by_cases q3 : i < p
        · rw [if_pos q3]
          have := h.win (i - b.pos) (by omega)
          rw [show b.pos + (i - b.pos) = i by omega] at this
          rw [this, List.getElem?_set_ne (by omega)]
        · rw [if_neg q3]
          by_cases q4 : i < p + 1
          · have : i = p := by omega
            subst this
            rw [if_pos q4, Nat.sub_self, show i - b.pos = b.posBuff by omega, List.getElem?_set_self (by omega)]
            rfl
          · rw [if_neg q4]
            have hlen : i - b.pos < b.lenBuff := by
              have : L = b.lenBuff := by split at hL <;> omega
              omega
            have := h.win (i - b.pos) hlen
            rw [show b.pos + (i - b.pos) = i by omega] at this
            rw [this, List.getElem?_set_ne (by omega)]
      · rw [if_neg (by omega), if_neg (by omega), List.getElem?_append_right (by simp only [List.length_append]; omega)]
        rw [List.length_append, hl1, hl2, List.getElem?_drop, show b.pos + L + (i - (b.pos + L)) = i by omega]
        rw [h.cont, List.getElem?_append_right (by simp only [List.length_append]; omega), List.length_append, hl1, hl3,
          List.getElem?_drop]
        congr 1; omega

/-- tape_write_byte replaces the byte at the position, except in the state `CleanEnd`. -/
theorem writeByte_ok {b c p} (h : Rep b c p) (hw : b.writable = true) (hg : ¬ CleanEnd b) (x : Nat) :
    ∃ b', writeByte b x = .ok (.ok, b') ∧ Rep b' (over c p [x]) (p + 1) ∧ b'.eot = b.eot ∧ b'.bot = b.bot ∧
      b'.writable = b.writable ∧ b'.dirty = true := by
  by_cases hp : b.posBuff ≥ W
  · have hd : b.dirty = true := by
      cases hd : b.dirty
      · exact absurd ⟨by have := h.le1; have := h.le2; omega, hd⟩ hg
      · rfl
    have hL : b.posBuff = b.lenBuff := by have := h.le1; have := h.le2; omega
    have hr : Rep { b with file := c, dirty := false, pos := b.pos + b.lenBuff, lenBuff := 0, posBuff := 0 } c p := by
      refine ⟨h.opened, by simp, h.blen, Nat.le_refl _, Nat.zero_le _, ?_, ?_, ?_, fun _ => rfl⟩
      · exact h.len
      · have := h.pat; simp; omega
      · simp
    obtain ⟨b', e, r⟩ := hr.put hw W_pos x
    refine ⟨b', ?_, r⟩
    unfold writeByte
    rw [if_neg (by simp [h.opened]), if_pos hp, if_pos hd, h.flush hd]; exact e
  · obtain ⟨b', e, r⟩ := h.put hw (by omega) x
    refine ⟨b', ?_, r⟩
    unfold writeByte
    rw [if_neg (by simp [h.opened]), if_neg hp]; exact e

/-! ## Reading backward -/

theorem Rep.back {b c p} (h : Rep b c p) (hp : 0 < b.posBuff) :
    ∃ b', backByte b = .ok (.ok, c[p - 1]'(by have := h.pos_le; have := h.pat; omega), b') ∧ Rep b' c (p - 1) ∧
      b' = { b with posBuff := b.posBuff - 1 } := by
  have h1 := h.le1; have h2 := h.le2; have hb := h.blen; have hpat := h.pat
  have hw := h.win (b.posBuff - 1) (by omega)
  rw [show b.pos + (b.posBuff - 1) = p - 1 by omega] at hw
  have hs : b.buffer[b.posBuff - 1]? = some (b.buffer[b.posBuff - 1]'(by omega)) := List.getElem?_eq_getElem _
  have hx : c[p - 1]'(by have := h.pos_le; omega) = b.buffer[b.posBuff - 1]'(by omega) := by
    have h3 := List.getElem?_eq_getElem (l := c) (i := p - 1) (by have := h.pos_le; omega)
    rw [hw, hs] at h3; exact (Option.some.inj h3).symm
  refine ⟨_, ?_, ?_, rfl⟩
  · unfold backByte; rw [if_neg (by omega), hs, hx]
  · exact ⟨h.opened, h.wrt, h.blen, by show b.posBuff - 1 ≤ b.lenBuff; omega, h.le2, h.le3,
      by show p - 1 = b.pos + (b.posBuff - 1); omega, h.cont, h.clean⟩

theorem prevWindow {b c p} (h : Rep b c p) (hc : b.posBuff = 0) (hd : b.dirty = false) (hW : ¬ b.pos < W) :
    Rep { fill b (b.pos - W) with posBuff := W, eot := false } c p ∧ (fill b (b.pos - W)).lenBuff = W := by
  have hpat := h.pat; have hpl := h.pos_le
  have hf : (fill b (b.pos - W)).lenBuff = W := by
    rw [fill_len, ← h.clean hd, Nat.min_eq_left (by omega)]
  have h0 := h.fill hd (b.pos - W) W (by omega) (Nat.le_refl _)
  rw [show b.pos - W + W = p by omega] at h0
  exact ⟨⟨h0.opened, h0.wrt, h0.blen, h0.le1, h0.le2, h0.le3, h0.pat, h0.cont, h0.clean⟩, hf⟩

theorem readbkRefill_ok {b c p} (h : Rep b c p) (d : Nat) (hc : b.posBuff = 0) (hd : b.dirty = false)
    (hbot : b.bot = false) (hp : 0 < p) :
    ∃ b', readbkRefill b d = .ok (.ok, c[p - 1]'(by have := h.pos_le; omega), b') ∧ Rep b' c (p - 1) ∧
      b'.eot = false ∧ b'.bot = false ∧ b'.writable = b.writable ∧ b'.dirty = false ∧ b'.posBuff < W := by
  have hpat := h.pat; have hpl := h.pos_le
  unfold readbkRefill
  rw [if_neg (by simp [hbot]), if_neg (by omega)]
  by_cases hW : b.pos < W
  · rw [if_pos hW]
    have hr : Rep { fill b 0 with posBuff := b.pos, eot := false } c p := by
      have h0 := h.fill hd 0 b.pos (by omega) (by omega)
      rw [show 0 + b.pos = p by omega] at h0
      exact ⟨h0.opened, h0.wrt, h0.blen, h0.le1, h0.le2, h0.le3, h0.pat, h0.cont, h0.clean⟩
    obtain ⟨b', e, r, eb⟩ := hr.back (by show 0 < b.pos; omega)
    refine ⟨b', e, r, by rw [eb], by rw [eb]; exact hbot, by rw [eb]; rfl, by rw [eb]; exact hd, ?_⟩
    rw [eb]; show b.pos - 1 < W; omega
  · rw [if_neg hW]
    obtain ⟨hr, hf⟩ := prevWindow h hc hd hW
    obtain ⟨b', e, r, eb⟩ := hr.back W_pos
    have e0 : { fill b (b.pos - W) with posBuff := (fill b (b.pos - W)).lenBuff, eot := false } =
        { fill b (b.pos - W) with posBuff := W, eot := false } := congrArg (fun k => { fill b (b.pos - W) with posBuff := k, eot := false }) hf
    refine ⟨b', (congrArg backByte e0).trans e, r, by simp only [eb], by simp only [eb, fill_bot]; exact hbot,
      by simp only [eb, fill_writable], by simp only [eb, fill_dirty]; exact hd, ?_⟩
    rw [eb]
    exact Nat.sub_lt W_pos Nat.one_pos

/-- tape_readbk_byte delivers the byte before the position and steps back. -/
theorem readbkByte_ok {b c p} (h : Rep b c p) (d : Nat) (hbot : b.bot = false) (hp : 0 < p) :
    ∃ b', readbkByte b d = .ok (.ok, c[p - 1]'(by have := h.pos_le; omega), b') ∧ Rep b' c (p - 1) ∧
      (b'.eot = b.eot ∨ b'.eot = false) ∧ b'.bot = false ∧ b'.writable = b.writable ∧
      (b'.dirty = b.dirty ∨ b'.dirty = false) ∧ b'.posBuff < W := by
  by_cases hc : b.posBuff = 0 ∨ b.lenBuff = 0
  · have hc0 : b.posBuff = 0 := by have := h.le1; omega
    by_cases hd : b.dirty = true
    · obtain ⟨b', e, r, q1, q2, q3, q4, q5⟩ := readbkRefill_ok h.flushed d hc0 rfl hbot hp
      refine ⟨b', ?_, r, Or.inr q1, q2, q3, Or.inr q4, q5⟩
      unfold readbkByte
      rw [if_neg (by simp [h.opened]), if_pos hc, if_pos hd, h.flush hd]; exact e
    · have hd : b.dirty = false := by simpa using hd
      obtain ⟨b', e, r, q1, q2, q3, q4, q5⟩ := readbkRefill_ok h d hc0 hd hbot hp
      refine ⟨b', ?_, r, Or.inr q1, q2, q3, Or.inr q4, q5⟩
      unfold readbkByte
      rw [if_neg (by simp [h.opened]), if_pos hc, if_neg (by simp [hd])]; exact e
  · obtain ⟨b', e, r, eb⟩ := h.back (by omega)
    refine ⟨b', ?_, r, by rw [eb]; exact Or.inl rfl, by rw [eb]; exact hbot, by rw [eb], by rw [eb]; exact Or.inl rfl, ?_⟩
    · unfold readbkByte
      rw [if_neg (by simp [h.opened]), if_neg hc]; exact e
    · rw [eb]; show b.posBuff - 1 < W; have := h.le1; have := h.le2; have := W_pos; omega

/-- At the load point it reports load point and does not move. -/
theorem readbkByte_bot {b c} (h : Rep b c 0) (d : Nat) :
    ∃ x b', readbkByte b d = .ok (.bot, x, b') ∧ Rep b' c 0 ∧ b'.bot = true ∧ b'.eot = b.eot ∧
      b'.writable = b.writable ∧ b'.posBuff = 0 := by
  have hpat := h.pat
  have hc : b.posBuff = 0 ∨ b.lenBuff = 0 := by omega
  have h0 : b.posBuff = 0 := by omega
  have key : ∀ b : Buf, Rep b c 0 → b.dirty = false → ∃ x b', readbkRefill b d = .ok (.bot, x, b') ∧ Rep b' c 0 ∧ b'.bot = true ∧
      b'.eot = b.eot ∧ b'.writable = b.writable ∧ b'.posBuff = 0 := by
    intro b h hd
    have hpat := h.pat; have hb := h.blen
    unfold readbkRefill
    by_cases hbot : b.bot = true
    · rw [if_pos hbot]
      exact ⟨_, _, rfl, h, hbot, rfl, rfl, by omega⟩
    · rw [if_neg hbot, if_pos (by omega), show b.posBuff = 0 by omega]
      have hs : b.buffer[0]? = some (b.buffer[0]'(by have := W_pos; omega)) := List.getElem?_eq_getElem _
      rw [hs]
      refine ⟨_, _, rfl, ?_, rfl, rfl, rfl, rfl⟩
      have hp0 : b.pos = 0 := by omega
      refine ⟨h.opened, h.wrt, h.blen, Nat.le_refl _, Nat.zero_le _, h.le3, by simp [hp0], ?_, h.clean⟩
      simp [h.clean hd]
  by_cases hd : b.dirty = true
  · obtain ⟨x, b', e, r⟩ := key _ h.flushed rfl
    refine ⟨x, b', ?_, r⟩
    unfold readbkByte
    rw [if_neg (by simp [h.opened]), if_pos hc, if_pos hd, h.flush hd]; exact e
  · have hd : b.dirty = false := by simpa using hd
    obtain ⟨x, b', e, r⟩ := key _ h hd
    refine ⟨x, b', ?_, r⟩
    unfold readbkByte
    rw [if_neg (by simp [h.opened]), if_pos hc, if_neg (by simp [hd])]; exact e

end Verif.Tape
