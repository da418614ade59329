import Verif.Tape.Loops
/-! # Arbitrary sequences of calls: bounds of the buffer, load point, file protection -/
namespace Verif.Tape

/-- No access outside an array; an endless loop only if `hp`; a result satisfies `P`. -/
def Good {α : Type} (hp : Prop) (x : Res α) (P : α → Prop) : Prop :=
  match x with
  | .ok a => P a
  | .oob => False
  | .hang => hp

theorem Good.bind {α β : Type} {hp : Prop} {x : Res α} {g : α → Res β} {P : α → Prop} {Q : β → Prop} (h : Good hp x P)
    (hg : ∀ a, P a → Good hp (g a) Q) : Good hp (x >>= g) Q := by
  cases x with
  | ok a => exact hg a h
  | oob => exact h.elim
  | hang => exact h

theorem Good.mono {α : Type} {hp : Prop} {x : Res α} {P Q : α → Prop} (h : Good hp x P) (hq : ∀ a, P a → Q a) : Good hp x Q := by
  cases x with
  | ok a => exact hq a h
  | oob => exact h.elim
  | hang => exact h

theorem Good.weaken {α : Type} {hp hq : Prop} {x : Res α} {P : α → Prop} (h : Good hp x P) (hi : hp → hq) : Good hq x P := by
  cases x with
  | ok a => exact h
  | oob => exact h.elim
  | hang => exact hi h

/-- What every call keeps.  `pr = some f`: the tape was mounted without the ring on a file holding `f`. -/
structure Inv (pr : Option (List Nat)) (b : Buf) : Prop where
  blen : b.buffer.length = W
  op : b.opened = true → b.posBuff ≤ b.lenBuff ∧ b.lenBuff ≤ W ∧ b.pos ≤ b.file.length ∧
    (b.dirty = false → b.pos + b.lenBuff ≤ b.file.length)
  prot : ∀ f, pr = some f → b.writable = false ∧ b.file = f

theorem Inv.setBot {pr b} (h : Inv pr b) (v : Bool) : Inv pr { b with bot := v } := ⟨h.blen, h.op, h.prot⟩
theorem Inv.setEot {pr b} (h : Inv pr b) (v : Bool) : Inv pr { b with eot := v } := ⟨h.blen, h.op, h.prot⟩

theorem wr_length_ge (f : List Nat) (p : Nat) (bs : List Nat) (hp : p ≤ f.length) :
    f.length ≤ (wr f p bs).length ∧ p + bs.length ≤ (wr f p bs).length := by
  unfold wr
  by_cases h : bs = []
  · rw [if_pos h, h]; simp; omega
  · rw [if_neg h]
    simp only [List.length_append, List.length_take, List.length_drop, List.length_replicate]
    omega

theorem flush_inv {pr b b'} (h : Inv pr b) (ho : b.opened = true) (e : flush b = some b') :
    Inv pr b' ∧ b'.dirty = false ∧ b'.opened = true ∧ b'.pos = b.pos ∧ b'.lenBuff = b.lenBuff ∧ b'.posBuff = b.posBuff ∧
      b'.bot = b.bot := by
  unfold flush at e
  by_cases hw : b.writable = true
  · rw [if_pos hw] at e
    obtain rfl := Option.some.inj e
    obtain ⟨h1, h2, h3, h4⟩ := h.op ho
    have hl := wr_length_ge b.file b.pos (b.buffer.take b.lenBuff) h3
    rw [List.length_take, h.blen, Nat.min_eq_left h2] at hl
    refine ⟨⟨h.blen, fun _ => ⟨h1, h2, by show b.pos ≤ (wr b.file b.pos (b.buffer.take b.lenBuff)).length; omega,
      fun _ => hl.2⟩, ?_⟩, rfl, ho, rfl, rfl, rfl, rfl⟩
    intro f hf
    have := (h.prot f hf).1
    rw [hw] at this; cases this
  · rw [if_neg hw] at e; cases e

theorem fill_inv {pr b} (h : Inv pr b) (hd : b.dirty = false) (p k : Nat) (hp : p ≤ b.file.length)
    (hk : k ≤ W) (hk2 : p + k ≤ b.file.length) : Inv pr { fill b p with posBuff := k } := by
  have hlen : (fill b p).lenBuff = min W (b.file.length - p) := fill_len b p
  refine ⟨?_, ?_, h.prot⟩
  · show ((b.file.drop p).take W ++ b.buffer.drop ((b.file.drop p).take W).length).length = W
    have := h.blen
    simp only [List.length_append, List.length_take, List.length_drop, h.blen]
    omega
  · intro _
    have e1 : ({ fill b p with posBuff := k } : Buf).lenBuff = min W (b.file.length - p) := hlen
    have e2 : ({ fill b p with posBuff := k } : Buf).pos = p := rfl
    have e3 : ({ fill b p with posBuff := k } : Buf).file = b.file := rfl
    have e4 : ({ fill b p with posBuff := k } : Buf).posBuff = k := rfl
    rw [e1, e2, e3, e4]
    exact ⟨by omega, by omega, hp, fun _ => by omega⟩

theorem refill_inv {pr b b'} (h : Inv pr b) (ho : b.opened = true) (e : refill b = some b') :
    Inv pr b' ∧ b'.dirty = false ∧ b'.posBuff = 0 ∧ b'.opened = true := by
  unfold refill at e
  by_cases hd : b.dirty = true
  · rw [if_pos hd] at e
    cases hfl : flush b with
    | none => rw [hfl] at e; cases e
    | some b1 =>
      rw [hfl] at e
      obtain rfl := Option.some.inj e
      obtain ⟨i1, d1, o1, _⟩ := flush_inv h ho hfl
      obtain ⟨_, _, _, h4⟩ := i1.op o1
      exact ⟨fill_inv i1 d1 _ 0 (h4 d1) (Nat.zero_le _) (h4 d1), d1, rfl, o1⟩
  · rw [if_neg hd] at e
    obtain rfl := Option.some.inj e
    have hd : b.dirty = false := by simpa using hd
    obtain ⟨_, _, _, h4⟩ := h.op ho
    exact ⟨fill_inv h hd _ 0 (h4 hd) (Nat.zero_le _) (h4 hd), hd, rfl, ho⟩

theorem fill_opened (b : Buf) (q : Nat) : (fill b q).opened = b.opened := rfl

/-- Invariant of a byte call. -/
def BOk (pr : Option (List Nat)) (r : St × Nat × Buf) : Prop := Inv pr r.2.2

theorem takeByte_good {pr b} (hp : Prop) (h : Inv pr b) (ho : b.opened = true) (hlt : b.posBuff < b.lenBuff) :
    Good hp (takeByte b) (BOk pr) := by
  obtain ⟨h1, h2, h3, h4⟩ := h.op ho
  unfold takeByte
  rw [List.getElem?_eq_getElem (by rw [h.blen]; omega)]
  exact ⟨h.blen, fun _ => ⟨by show b.posBuff + 1 ≤ b.lenBuff; omega, h2, h3, h4⟩, h.prot⟩

theorem readByte_good {pr b} (hp : Prop) (d : Nat) (h : Inv pr b) : Good hp (readByte b d) (BOk pr) := by
  unfold readByte
  by_cases ho : b.opened = false
  · rw [if_pos ho]; exact h
  rw [if_neg ho]
  have ho : b.opened = true := by simpa using ho
  by_cases hr : b.posBuff ≥ b.lenBuff ∨ b.lenBuff = 0
  · rw [if_pos hr]
    cases e : refill b with
    | none => exact h
    | some b1 =>
      obtain ⟨i1, d1, p1, o1⟩ := refill_inv h ho e
      simp only
      by_cases hz : b1.lenBuff = 0
      · rw [if_pos hz]; exact i1.setEot true
      · rw [if_neg hz]; exact takeByte_good hp i1 o1 (by omega)
  · rw [if_neg hr]; exact takeByte_good hp h ho (by omega)

theorem lookByte_good {pr b} (hp : Prop) (h : Inv pr b) (ho : b.opened = true) (hlt : b.posBuff < b.lenBuff) :
    Good hp (lookByte b) (BOk pr) := by
  obtain ⟨h1, h2, h3, h4⟩ := h.op ho
  unfold lookByte
  rw [List.getElem?_eq_getElem (by rw [h.blen]; omega)]
  exact h

theorem peekByte_good {pr b} (hp : Prop) (d : Nat) (h : Inv pr b) : Good hp (peekByte b d) (BOk pr) := by
  unfold peekByte
  by_cases ho : b.opened = false
  · rw [if_pos ho]; exact h
  rw [if_neg ho]
  have ho : b.opened = true := by simpa using ho
  by_cases hr : b.posBuff ≥ b.lenBuff ∨ b.lenBuff = 0
  · rw [if_pos hr]
    cases e : refill b with
    | none => exact h
    | some b1 =>
      obtain ⟨i1, d1, p1, o1⟩ := refill_inv h ho e
      simp only
      by_cases hz : b1.lenBuff = 0
      · rw [if_pos hz]; exact i1
      · rw [if_neg hz]; exact lookByte_good hp i1 o1 (by omega)
  · rw [if_neg hr]; exact lookByte_good hp h ho (by omega)

theorem putByte_good {pr b} (hp : Prop) (x : Nat) (h : Inv pr b) (hlt : b.posBuff < W) :
    Good hp (putByte b x) (fun r => Inv pr r.2) := by
  unfold putByte
  rw [if_pos (by rw [h.blen]; exact hlt)]
  refine ⟨by simp [h.blen], ?_, h.prot⟩
  intro ho
  obtain ⟨h1, h2, h3, h4⟩ := h.op ho
  refine ⟨?_, ?_, h3, by intro q; cases q⟩
  · show b.posBuff + 1 ≤ (if b.posBuff + 1 > b.lenBuff then b.posBuff + 1 else b.lenBuff); split <;> omega
  · show (if b.posBuff + 1 > b.lenBuff then b.posBuff + 1 else b.lenBuff) ≤ W; split <;> omega

theorem writeByte_good {pr b} (hp : Prop) (x : Nat) (h : Inv pr b) : Good hp (writeByte b x) (fun r => Inv pr r.2) := by
  unfold writeByte
  by_cases ho : b.opened = false
  · rw [if_pos ho]; exact h
  rw [if_neg ho]
  have ho : b.opened = true := by simpa using ho
  by_cases hw : b.posBuff ≥ W
  · rw [if_pos hw]
    by_cases hd : b.dirty = true
    · rw [if_pos hd]
      cases e : flush b with
      | none => exact h
      | some b1 =>
        obtain ⟨i1, d1, o1, _⟩ := flush_inv h ho e
        obtain ⟨h1, h2, h3, h4⟩ := i1.op o1
        refine putByte_good hp x ⟨i1.blen, fun _ => ⟨Nat.le_refl _, Nat.zero_le _, h4 d1, fun _ => h4 d1⟩, i1.prot⟩ W_pos
    · rw [if_neg hd]
      obtain ⟨h1, h2, h3, h4⟩ := h.op ho
      exact putByte_good hp x ⟨h.blen, fun _ => ⟨Nat.le_refl _, Nat.zero_le _, h3, fun _ => h3⟩, h.prot⟩ W_pos
  · rw [if_neg hw]; exact putByte_good hp x h (by omega)

theorem backByte_good {pr b} (hp : Prop) (h : Inv pr b) (ho : b.opened = true) (h0 : b.posBuff ≠ 0) :
    Good hp (backByte b) (BOk pr) := by
  obtain ⟨h1, h2, h3, h4⟩ := h.op ho
  unfold backByte
  rw [if_neg h0, List.getElem?_eq_getElem (by rw [h.blen]; omega)]
  exact ⟨h.blen, fun _ => ⟨by show b.posBuff - 1 ≤ b.lenBuff; omega, h2, h3, h4⟩, h.prot⟩

theorem readbkRefill_good {pr b} (hp : Prop) (d : Nat) (h : Inv pr b) (ho : b.opened = true) (hd : b.dirty = false)
    (h0 : b.posBuff = 0 ∨ b.lenBuff = 0) : Good hp (readbkRefill b d) (BOk pr) := by
  obtain ⟨h1, h2, h3, h4⟩ := h.op ho
  have hW := W_pos
  unfold readbkRefill
  by_cases hb : b.bot = true
  · rw [if_pos hb]; exact h
  rw [if_neg hb]
  by_cases hp0 : b.pos = 0
  · rw [if_pos hp0, List.getElem?_eq_getElem (by rw [h.blen]; omega)]
    exact ⟨h.blen, fun _ => ⟨Nat.le_refl _, Nat.zero_le _, h3, fun _ => h3⟩, h.prot⟩
  rw [if_neg hp0]
  by_cases hw : b.pos < W
  · rw [if_pos hw]
    have hi := (fill_inv h hd 0 b.pos (Nat.zero_le _) (by omega) (by omega)).setEot false
    have hop : (fill b 0).opened = true := ho
    generalize fill b 0 = b' at hi hop ⊢
    exact backByte_good hp hi hop hp0
  · rw [if_neg hw]
    simp only
    have hlen : (fill b (b.pos - W)).lenBuff = min W (b.file.length - (b.pos - W)) := fill_len b _
    have hlw : (fill b (b.pos - W)).lenBuff = W := by rw [hlen]; omega
    have hi := (fill_inv h hd (b.pos - W) (fill b (b.pos - W)).lenBuff (by omega) (by rw [hlw]; exact Nat.le_refl _)
      (by rw [hlw]; omega)).setEot false
    have hne : (fill b (b.pos - W)).lenBuff ≠ 0 := by rw [hlw]; omega
    have hop : (fill b (b.pos - W)).opened = true := by rw [fill_opened]; exact ho
    generalize fill b (b.pos - W) = b' at hi hne hop ⊢
    exact backByte_good hp hi hop hne

theorem readbkByte_good {pr b} (hp : Prop) (d : Nat) (h : Inv pr b) : Good hp (readbkByte b d) (BOk pr) := by
  unfold readbkByte
  by_cases ho : b.opened = false
  · rw [if_pos ho]; exact h
  rw [if_neg ho]
  have ho : b.opened = true := by simpa using ho
  by_cases hr : b.posBuff = 0 ∨ b.lenBuff = 0
  · rw [if_pos hr]
    by_cases hd : b.dirty = true
    · rw [if_pos hd]
      cases e : flush b with
      | none => exact h
      | some b1 =>
        obtain ⟨i1, d1, o1, _, l1, p1, _⟩ := flush_inv h ho e
        exact readbkRefill_good hp d i1 o1 d1 (by rw [p1, l1]; exact hr)
    · rw [if_neg hd]; exact readbkRefill_good hp d h ho (by simpa using hd) hr
  · rw [if_neg hr]; exact backByte_good hp h ho (by omega)

theorem writePrev_good {pr t} (hp : Prop) (x : Nat) (h : Inv pr t.b) :
    Good hp (writePrev t x) (fun r => Inv pr r.2.b) := by
  unfold writePrev
  by_cases ho : t.b.opened = false
  · rw [if_pos ho]; exact h
  rw [if_neg ho]
  by_cases hq : t.b.pos ≤ t.srec ∧ t.srec - t.b.pos < W
  · rw [if_pos hq]
    simp only
    rw [if_pos (by rw [h.blen]; exact hq.2)]
    refine ⟨by simp [h.blen], ?_, h.prot⟩
    intro ho
    obtain ⟨h1, h2, h3, h4⟩ := h.op ho
    refine ⟨?_, ?_, h3, by intro q; cases q⟩
    · show t.b.posBuff ≤ (if t.srec - t.b.pos > t.b.lenBuff then t.srec - t.b.pos else t.b.lenBuff); split <;> omega
    · show (if t.srec - t.b.pos > t.b.lenBuff then t.srec - t.b.pos else t.b.lenBuff) ≤ W; split <;> omega
  · rw [if_neg hq]
    by_cases hw : t.b.writable = true
    · rw [if_pos hw]
      refine ⟨h.blen, ?_, ?_⟩
      · intro ho
        obtain ⟨h1, h2, h3, h4⟩ := h.op ho
        have hl : t.b.file.length ≤ (wr t.b.file t.srec [x]).length := by
          unfold wr
          rw [if_neg (by simp)]
          simp only [List.length_append, List.length_take, List.length_drop, List.length_replicate, List.length_singleton]
          omega
        exact ⟨h1, h2, Nat.le_trans h3 hl, fun q => Nat.le_trans (h4 q) hl⟩
      · intro f hf
        have := (h.prot f hf).1
        rw [hw] at this; cases this
    · rw [if_neg hw]; exact h

theorem rdLoop_good {pr} (hp : Prop) : ∀ (n : Nat) (b : Buf), Inv pr b → Good hp (rdLoop n b) (fun r => Inv pr r.2.2) := by
  intro n
  induction n with
  | zero => intro b h; exact h
  | succ n ih =>
    intro b h
    unfold rdLoop
    refine (readByte_good hp 0 h).bind ?_
    rintro ⟨s, x, b1⟩ h1
    simp only
    by_cases hs : s = .ok
    · rw [if_pos hs]
      refine (ih b1 h1).bind ?_
      rintro ⟨s, l, b2⟩ h2
      exact h2
    · rw [if_neg hs]; exact h1

theorem bkLoop_good {pr} (hp : Prop) : ∀ (n : Nat) (b : Buf) (acc : List Nat), Inv pr b →
    Good hp (bkLoop n b acc) (fun r => Inv pr r.2.2) := by
  intro n
  induction n with
  | zero => intro b acc h; exact h
  | succ n ih =>
    intro b acc h
    unfold bkLoop
    refine (readbkByte_good hp 0 h).bind ?_
    rintro ⟨s, x, b1⟩ h1
    simp only
    by_cases hs : s = .ok
    · rw [if_pos hs]; exact ih b1 _ h1
    · rw [if_neg hs]; exact h1

theorem wrLoop_good {pr} (hp : Prop) : ∀ (l : List Nat) (b : Buf), Inv pr b → Good hp (wrLoop l b) (fun r => Inv pr r.2) := by
  intro l
  induction l with
  | nil => intro b h; exact h
  | cons x l ih =>
    intro b h
    unfold wrLoop
    refine (writeByte_good hp x h).bind ?_
    rintro ⟨s, b1⟩ h1
    simp only
    by_cases hs : s = .ok
    · rw [if_pos hs]; exact ih b1 h1
    · rw [if_neg hs]; exact h1

theorem prevLoop_good {pr} (hp : Prop) : ∀ (l : List Nat) (t : Tape), Inv pr t.b →
    Good hp (prevLoop l t) (fun r => Inv pr r.2.b) := by
  intro l
  induction l with
  | nil => intro t h; exact h
  | cons x l ih =>
    intro t h
    unfold prevLoop
    refine (writePrev_good hp x h).bind ?_
    rintro ⟨s, t1⟩ h1
    simp only
    by_cases hs : s = .ok
    · rw [if_pos hs]; exact ih t1 h1
    · rw [if_neg hs]; exact h1

/-! ## Record operations.  `TOk`: the format stays. -/

def TOk (pr : Option (List Nat)) (f : Fmt) (t : Tape) : Prop := Inv pr t.b ∧ t.fmt = f

theorem writeStart_good {pr f t} (hp : Prop) (h : TOk pr f t) : Good hp (writeStart t) (fun r => TOk pr f r.2) := by
  unfold writeStart
  by_cases ho : t.b.opened = false
  · rw [if_pos ho]; exact h
  rw [if_neg ho]
  by_cases hr : t.ring = false
  · rw [if_pos hr]; exact h
  rw [if_neg hr]
  simp only
  by_cases hf : t.fmt = .tap ∨ t.fmt = .e11
  · rw [if_pos hf]
    refine (wrLoop_good hp [0, 0, 0, 0] _ (h.1.setBot false)).bind ?_
    rintro ⟨s, b1⟩ h1
    simp only
    by_cases hs : s = .ok
    · rw [if_pos hs]; exact ⟨h1, h.2⟩
    · rw [if_neg hs]; exact ⟨h1, h.2⟩
  · rw [if_neg hf]; exact ⟨h.1.setBot false, h.2⟩

theorem writeMark_good {pr f t} (hp : Prop) (h : TOk pr f t) : Good hp (writeMark t) (fun r => TOk pr f r.2) := by
  unfold writeMark
  by_cases ho : t.b.opened = false
  · rw [if_pos ho]; exact h
  rw [if_neg ho]
  by_cases hr : t.ring = false
  · rw [if_pos hr]; exact h
  rw [if_neg hr]
  simp only
  by_cases hf : t.fmt = .tap ∨ t.fmt = .e11
  · rw [if_pos hf]
    refine (wrLoop_good hp [0, 0, 0, 0] _ (h.1.setBot false)).bind ?_
    rintro ⟨s, b1⟩ h1
    simp only
    by_cases hs : s = .ok
    · rw [if_pos hs]; exact ⟨h1, h.2⟩
    · rw [if_neg hs]; exact ⟨h1, h.2⟩
  rw [if_neg hf]
  by_cases hf : t.fmt = .p7b
  · rw [if_pos hf]
    refine (wrLoop_good hp [0x8f] _ (h.1.setBot false)).bind ?_
    rintro ⟨s, b1⟩ h1
    simp only
    by_cases hs : s = .ok
    · rw [if_pos hs]; exact ⟨h1, h.2⟩
    · rw [if_neg hs]; exact ⟨h1, h.2⟩
  · rw [if_neg hf]; exact ⟨h.1.setBot false, h.2⟩

theorem readForw_good {pr f t} (hp : Prop) (h : TOk pr f t) : Good hp (readForw t) (fun r => TOk pr f r.2) := by
  unfold readForw
  by_cases ho : t.b.opened = false
  · rw [if_pos ho]; exact h
  rw [if_neg ho]
  simp only
  by_cases he : t.b.eot = true
  · rw [if_pos he]; exact ⟨h.1.setBot false, h.2⟩
  rw [if_neg he]
  by_cases hf : t.fmt = .tap ∨ t.fmt = .e11
  · rw [if_pos hf]
    refine (rdLoop_good hp 4 _ (h.1.setBot false)).bind ?_
    rintro ⟨s, l, b1⟩ h1
    simp only
    by_cases hs : s ≠ .ok
    · rw [if_pos hs]; exact ⟨h1, h.2⟩
    rw [if_neg hs]
    by_cases hn : num4 l = 0xffffffff
    · rw [if_pos hn]
      refine (bkLoop_good hp 4 _ [] (h1.setEot true)).bind ?_
      rintro ⟨s, l, b2⟩ h2
      exact ⟨h2, h.2⟩
    rw [if_neg hn]
    by_cases h0 : num4 l = 0
    · rw [if_pos h0]; exact ⟨h1, h.2⟩
    · rw [if_neg h0]; exact ⟨h1, h.2⟩
  rw [if_neg hf]
  by_cases hf : t.fmt = .p7b
  · rw [if_pos hf]
    refine (peekByte_good hp 0 (h.1.setBot false)).bind ?_
    rintro ⟨s, x, b1⟩ h1
    simp only
    by_cases hs : s ≠ .ok
    · rw [if_pos hs]; exact ⟨h1, h.2⟩
    rw [if_neg hs]
    by_cases hx : x = 0x8f
    · rw [if_pos hx]
      refine (readByte_good hp x h1).bind ?_
      rintro ⟨s, y, b2⟩ h2
      simp only
      by_cases hs : s = .fileError
      · rw [if_pos hs]; exact ⟨h2, h.2⟩
      · rw [if_neg hs]; exact ⟨h2, h.2⟩
    · rw [if_neg hx]; exact ⟨h1, h.2⟩
  · rw [if_neg hf]; exact ⟨h.1.setBot false, h.2⟩

theorem readBack_good {pr f t} (hp : Prop) (h : TOk pr f t) : Good hp (readBack t) (fun r => TOk pr f r.2) := by
  unfold readBack
  by_cases ho : t.b.opened = false
  · rw [if_pos ho]; exact h
  rw [if_neg ho]
  simp only
  by_cases he : t.b.bot = true
  · rw [if_pos he]; exact ⟨h.1.setEot false, h.2⟩
  rw [if_neg he]
  by_cases hf : t.fmt = .tap ∨ t.fmt = .e11
  · rw [if_pos hf]
    refine (bkLoop_good hp 4 _ [] (h.1.setEot false)).bind ?_
    rintro ⟨s, l, b1⟩ h1
    simp only
    by_cases hs : s ≠ .ok
    · rw [if_pos hs]; exact ⟨h1, h.2⟩
    rw [if_neg hs]
    by_cases hn : num4 l = 0xffffffff
    · rw [if_pos hn]; exact ⟨h1, h.2⟩
    rw [if_neg hn]
    have hpad : Good hp (if t.fmt = .tap ∧ num4 l % 2 = 1 then readbkByte b1 0 else .ok (.ok, 0, b1)) (BOk pr) := by
      by_cases hc : t.fmt = .tap ∧ num4 l % 2 = 1
      · rw [if_pos hc]; exact readbkByte_good hp 0 h1
      · rw [if_neg hc]; exact h1
    refine hpad.bind ?_
    rintro ⟨s, x, b2⟩ h2
    simp only
    by_cases h0 : num4 l = 0
    · rw [if_pos h0]; exact ⟨h2, h.2⟩
    · rw [if_neg h0]; exact ⟨h2, h.2⟩
  rw [if_neg hf]
  by_cases hf : t.fmt = .p7b
  · rw [if_pos hf]
    refine (readbkByte_good hp 0 (h.1.setEot false)).bind ?_
    rintro ⟨s, x, b1⟩ h1
    simp only
    by_cases hs : s ≠ .ok
    · rw [if_pos hs]; exact ⟨h1, h.2⟩
    rw [if_neg hs]
    by_cases hx : x = 0x8f
    · rw [if_pos hx]; exact ⟨h1, h.2⟩
    · rw [if_neg hx]
      refine (readByte_good hp x h1).bind ?_
      rintro ⟨s, y, b2⟩ h2
      exact ⟨h2, h.2⟩
  · rw [if_neg hf]; exact ⟨h.1.setEot false, h.2⟩

theorem readFrame_good {pr f t} (hp : Prop) (d : Nat) (h : TOk pr f t) :
    Good hp (readFrame t d) (fun r => TOk pr f r.2.2) := by
  unfold readFrame
  by_cases ho : t.b.opened = false
  · rw [if_pos ho]; exact h
  rw [if_neg ho]
  by_cases hm : t.mark = true
  · rw [if_pos hm]; exact h
  rw [if_neg hm]
  by_cases hf : t.fmt = .tap ∨ t.fmt = .e11
  · rw [if_pos hf]
    by_cases hr : t.func = .read
    · rw [if_pos hr]
      by_cases hl : t.lrecl ≥ t.orecl
      · rw [if_pos hl]; exact h
      · rw [if_neg hl]
        refine (readByte_good hp d h.1).bind ?_
        rintro ⟨s, x, b1⟩ h1
        exact ⟨h1, h.2⟩
    rw [if_neg hr]
    by_cases hr : t.func = .rdback
    · rw [if_pos hr]
      by_cases hl : t.lrecl = 0
      · rw [if_pos hl]; exact h
      · rw [if_neg hl]
        refine (readbkByte_good hp d h.1).bind ?_
        rintro ⟨s, x, b1⟩ h1
        exact ⟨h1, h.2⟩
    · rw [if_neg hr]; exact h
  rw [if_neg hf]
  by_cases hf : t.fmt = .p7b
  · rw [if_pos hf]
    by_cases hr : t.func = .read
    · rw [if_pos hr]
      by_cases hl : t.lrecl = 2
      · rw [if_pos hl]; exact h
      · rw [if_neg hl]
        refine (readByte_good hp d h.1).bind ?_
        rintro ⟨s, x, b1⟩ h1
        simp only
        by_cases hx : t.lrecl = 1 ∧ x / 128 % 2 = 1
        · rw [if_pos hx]
          refine (readbkByte_good hp x h1).bind ?_
          rintro ⟨s, y, b2⟩ h2
          exact ⟨h2, h.2⟩
        · rw [if_neg hx]; exact ⟨h1, h.2⟩
    rw [if_neg hr]
    by_cases hr : t.func = .rdback
    · rw [if_pos hr]
      by_cases hl : t.lrecl = 2
      · rw [if_pos hl]; exact h
      · rw [if_neg hl]
        refine (readbkByte_good hp d h.1).bind ?_
        rintro ⟨s, x, b1⟩ h1
        exact ⟨h1, h.2⟩
    · rw [if_neg hr]; exact h
  · rw [if_neg hf]; exact h

theorem writeFrame_good {pr f t} (hp : Prop) (x : Nat) (h : TOk pr f t) :
    Good hp (writeFrame t x) (fun r => TOk pr f r.2) := by
  unfold writeFrame
  by_cases ho : t.b.opened = false
  · rw [if_pos ho]; exact h
  rw [if_neg ho]
  simp only
  refine (writeByte_good hp _ h.1).bind ?_
  rintro ⟨s, b1⟩ h1
  exact ⟨h1, h.2⟩

theorem skipLoop_good {pr f} (hp : Prop) : ∀ (n : Nat) (t : Tape) (d : Nat), TOk pr f t →
    Good hp (skipLoop n t d) (TOk pr f) := by
  intro n
  induction n with
  | zero => intro t d h; exact h
  | succ n ih =>
    intro t d h
    unfold skipLoop
    refine (readFrame_good hp d h).bind ?_
    rintro ⟨s, x, t1⟩ h1
    exact ih t1 x h1

theorem irgLoop_good {pr f} (hp : Prop) (hh : hp) : ∀ (n : Nat) (t : Tape) (d : Nat), TOk pr f t →
    Good hp (irgLoop n t d) (fun r => TOk pr f r.2) := by
  intro n
  induction n with
  | zero =>
    intro t d h
    unfold irgLoop
    by_cases h2 : t.lrecl = 2
    · rw [if_pos h2]; exact h
    · rw [if_neg h2]; exact hh
  | succ n ih =>
    intro t d h
    unfold irgLoop
    by_cases h2 : t.lrecl = 2
    · rw [if_pos h2]; exact h
    · rw [if_neg h2]
      refine (readFrame_good hp d h).bind ?_
      rintro ⟨s, x, t1⟩ h1
      simp only
      by_cases hs : s = .fileError
      · rw [if_pos hs]; exact h1
      · rw [if_neg hs]; exact ih t1 x h1

theorem finishRec_good {pr f t} (hp : Prop) (hh : f = .p7b → hp) (fuel junk : Nat) (h : TOk pr f t) :
    Good hp (finishRec fuel junk t) (fun r => TOk pr f r.2) := by
  unfold finishRec
  by_cases ho : t.b.opened = false
  · rw [if_pos ho]; exact h
  rw [if_neg ho]
  by_cases hf : t.fmt = .tap ∨ t.fmt = .e11
  · rw [if_pos hf]
    by_cases hm : t.mark = true
    · rw [if_pos hm]; exact h
    rw [if_neg hm]
    cases hfn : t.func with
    | read =>
      refine (skipLoop_good hp _ t junk h).bind ?_
      intro t1 h1
      have hpad : Good hp (if t1.fmt = .tap ∧ t1.orecl % 2 = 1 then readByte t1.b 0 else .ok (.ok, 0, t1.b)) (BOk pr) := by
        by_cases hc : t1.fmt = .tap ∧ t1.orecl % 2 = 1
        · rw [if_pos hc]; exact readByte_good hp 0 h1.1
        · rw [if_neg hc]; exact h1.1
      refine hpad.bind ?_
      rintro ⟨s, x, b2⟩ h2
      simp only
      refine (rdLoop_good hp 4 b2 h2).bind ?_
      rintro ⟨s, l, b3⟩ h3
      simp only
      by_cases hs : s ≠ .ok
      · rw [if_pos hs]; exact ⟨h3, h1.2⟩
      · rw [if_neg hs]; exact ⟨h3, h1.2⟩
    | write =>
      have hpad : Good hp (if t.fmt = .tap ∧ t.lrecl % 2 = 1 then writeByte t.b 0 else .ok (.ok, t.b)) (fun r => Inv pr r.2) := by
        by_cases hc : t.fmt = .tap ∧ t.lrecl % 2 = 1
        · rw [if_pos hc]; exact writeByte_good hp 0 h.1
        · rw [if_neg hc]; exact h.1
      refine hpad.bind ?_
      rintro ⟨s, b2⟩ h2
      simp only
      have hprev : Good hp (prevLoop (bytes4 t.lrecl) { t with b := b2 }) (fun r => TOk pr f r.2) := by
        have hfm : ∀ (l : List Nat) (v : Tape), TOk pr f v → Good hp (prevLoop l v) (fun r => TOk pr f r.2) := by
          intro l
          induction l with
          | nil => intro v hv; exact hv
          | cons x l ih =>
            intro v hv
            unfold prevLoop
            have h1 : Good hp (writePrev v x) (fun r => TOk pr f r.2) := by
              have g := writePrev_good hp x hv.1
              have g2 : Good hp (writePrev v x) (fun r => r.2.fmt = f) := by
                revert g
                unfold writePrev
                by_cases ho : v.b.opened = false
                · rw [if_pos ho]; intro _; exact hv.2
                rw [if_neg ho]
                by_cases hq : v.b.pos ≤ v.srec ∧ v.srec - v.b.pos < W
                · rw [if_pos hq]
                  simp only
                  by_cases hl : v.srec - v.b.pos < v.b.buffer.length
                  · rw [if_pos hl]; intro _; exact hv.2
                  · rw [if_neg hl]; intro g; exact g
                · rw [if_neg hq]
                  by_cases hw : v.b.writable = true
                  · rw [if_pos hw]; intro _; exact hv.2
                  · rw [if_neg hw]; intro _; exact hv.2
              cases hx : writePrev v x with
              | ok a => rw [hx] at g g2; exact ⟨g, g2⟩
              | oob => rw [hx] at g; exact g.elim
              | hang => rw [hx] at g; exact g
            refine h1.bind ?_
            rintro ⟨s, v1⟩ hv1
            simp only
            by_cases hs : s = .ok
            · rw [if_pos hs]; exact ih v1 hv1
            · rw [if_neg hs]; exact hv1
        exact hfm _ _ ⟨h2, h.2⟩
      rw [hfn] at hprev
      refine hprev.bind ?_
      rintro ⟨s, t3⟩ h3
      simp only
      by_cases hs : s ≠ .ok
      · rw [if_pos hs]; exact h3
      rw [if_neg hs]
      refine (wrLoop_good hp _ t3.b h3.1).bind ?_
      rintro ⟨s, b4⟩ h4
      simp only
      by_cases hs : s ≠ .ok
      · rw [if_pos hs]; exact ⟨h4, h3.2⟩
      · rw [if_neg hs]; exact ⟨h4, h3.2⟩
    | rdback =>
      refine (skipLoop_good hp _ t junk h).bind ?_
      intro t1 h1
      refine (bkLoop_good hp 4 t1.b [] h1.1).bind ?_
      rintro ⟨s, l, b3⟩ h3
      simp only
      by_cases hs : s ≠ .ok
      · rw [if_pos hs]; exact ⟨h3, h1.2⟩
      · rw [if_neg hs]; exact ⟨h3, h1.2⟩
    | none => exact h
    | rew => exact h
    | mark => exact h
  rw [if_neg hf]
  by_cases hf : t.fmt = .p7b
  · rw [if_pos hf]
    have hh : hp := hh (h.2.symm.trans hf)
    by_cases hm : t.mark = true
    · rw [if_pos hm]; exact h
    rw [if_neg hm]
    cases hfn : t.func with
    | read =>
      refine (irgLoop_good hp hh _ t junk h).bind ?_
      rintro ⟨e, t1⟩ h1
      simp only
      cases e with
      | true => exact h1
      | false => exact h1
    | rdback =>
      refine (irgLoop_good hp hh _ t junk h).bind ?_
      rintro ⟨e, t1⟩ h1
      simp only
      cases e with
      | true => exact h1
      | false => exact h1
    | none => exact h
    | rew => exact h
    | mark => exact h
    | write => exact h
  · rw [if_neg hf]; exact h

theorem startRewind_good {pr f t} (h : TOk pr f t) : TOk pr f (startRewind t).2 := by
  have hz : ∀ b : Buf, Inv pr b → Inv pr { b with pos := 0, posBuff := 0, lenBuff := 0 } := fun b hb =>
    ⟨hb.blen, fun _ => ⟨Nat.le_refl _, Nat.zero_le _, Nat.zero_le _, fun _ => Nat.zero_le _⟩, hb.prot⟩
  unfold startRewind
  by_cases hd : t.b.dirty = true
  · rw [if_pos hd]
    cases e : flush t.b with
    | none => exact h
    | some b1 =>
      refine ⟨?_, h.2⟩
      refine ⟨?_, fun _ => ⟨Nat.le_refl _, Nat.zero_le _, Nat.zero_le _, fun _ => Nat.zero_le _⟩, ?_⟩
      · unfold flush at e
        by_cases hw : t.b.writable = true
        · rw [if_pos hw] at e; obtain rfl := Option.some.inj e; exact h.1.blen
        · rw [if_neg hw] at e; cases e
      · intro f' hf'
        have := (h.1.prot f' hf').1
        unfold flush at e
        rw [if_neg (by simp [this])] at e
        cases e
  · rw [if_neg hd]; exact ⟨hz _ h.1, h.2⟩

theorem rewindFrames_good {pr f t} (n : Int) (h : TOk pr f t) : TOk pr f (rewindFrames t n).2 := by
  unfold rewindFrames
  by_cases ho : t.b.opened = false
  · rw [if_pos ho]; exact h
  rw [if_neg ho]
  by_cases hl : t.posFrame < n
  · rw [if_pos hl]; exact ⟨h.1.setBot true, h.2⟩
  · rw [if_neg hl]; exact h

theorem detach_good {pr f t} (h : TOk pr f t) : TOk pr f (detach t) := by
  have hop : ∀ b : Buf, b.buffer.length = W → (∀ f, pr = some f → b.writable = false ∧ b.file = f) →
      Inv pr { b with opened := false } := fun b h1 h2 => ⟨h1, (by intro q; cases q), h2⟩
  unfold detach
  simp only
  by_cases hd : t.b.dirty = true
  · rw [if_pos hd]
    cases e : flush t.b with
    | none => exact ⟨hop _ h.1.blen h.1.prot, h.2⟩
    | some b1 =>
      unfold flush at e
      by_cases hw : t.b.writable = true
      · rw [if_pos hw] at e
        obtain rfl := Option.some.inj e
        refine ⟨hop _ h.1.blen ?_, h.2⟩
        intro f' hf'
        have := (h.1.prot f' hf').1
        rw [hw] at this; cases this
      · rw [if_neg hw] at e; cases e
  · rw [if_neg hd]; exact ⟨hop _ h.1.blen h.1.prot, h.2⟩

theorem attach_good {pr t} (h : Inv pr t.b) (file : List Nat) (f : Fmt) (ring den : Bool) :
    TOk (if ring then none else some file) f (attach t file f ring den) := by
  refine ⟨⟨h.blen, fun _ => ⟨Nat.le_refl _, Nat.zero_le _, Nat.zero_le _, fun _ => Nat.zero_le _⟩, ?_⟩, rfl⟩
  intro g hg
  cases ring with
  | true => cases hg
  | false => exact ⟨rfl, Option.some.inj hg⟩

end Verif.Tape
