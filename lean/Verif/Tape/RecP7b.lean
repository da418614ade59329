import Verif.Tape.RecTap
/-! # Records and marks in the P7B format -/
namespace Verif.Tape

/-! ## Writing -/

theorem writeMark_p7 {t c p} (h : Drive t .p7b true c p) (hg : ¬ CleanEnd t.b) :
    ∃ t', writeMark t = .ok (.ok, t') ∧ Drive t' .p7b true (over c p [0x8f]) (p + 1) ∧ t'.b.eot = t.b.eot ∧
      t'.b.bot = false ∧ ¬ CleanEnd t'.b := by
  obtain ⟨b', e, r, a1, a2, a3, a4, _⟩ := wrLoop_ok [0x8f] _ c p (h.rep.clrBot false) h.wrt hg
  refine ⟨{ t with b := b', mark := false, srec := t.b.pos + t.b.posBuff, lrecl := 0, orecl := 0,
                   posFrame := t.posFrame + 1200, func := .mark }, ?_, ⟨r, h.fmt, h.ring, a3⟩, a1, a2, a4⟩
  unfold writeMark
  rw [if_neg (by simp [h.rep.opened]), if_neg (by simp [h.ring])]
  simp only
  rw [if_neg (by rw [h.fmt]; simp), if_pos h.fmt, e]
  simp

theorem writeFrame_p7 {t c p} (x y : Nat) (h : Drive t .p7b true c p) (hg : ¬ CleanEnd t.b) (hx : x < 128)
    (hy : y = if t.lrecl = 0 then x + 128 else x) (hn : t.lrecl + 1 < 4294967296) :
    ∃ b' pf, writeFrame t x = .ok (.ok, { t with b := b', lrecl := t.lrecl + 1, posFrame := pf }) ∧
      Drive { t with b := b', lrecl := t.lrecl + 1, posFrame := pf } .p7b true (over c p [y]) (p + 1) ∧
      b'.eot = t.b.eot ∧ b'.bot = t.b.bot ∧ b'.dirty = true := by
  have hv : (if t.fmt = .p7b ∧ t.lrecl = 0 then (if x / 128 % 2 = 1 then x else x + 128) else x) = y := by
    rw [hy, h.fmt]
    by_cases h0 : t.lrecl = 0
    · rw [if_pos ⟨rfl, h0⟩, if_pos h0, if_neg (by omega)]
    · rw [if_neg (by simp [h0]), if_neg h0]
  obtain ⟨b1, e1, r1, a1, a2, a3, a4⟩ := writeByte_ok h.rep h.wrt hg y
  refine ⟨b1, t.posFrame + step t, ?_, ⟨r1, h.fmt, h.ring, a3.trans h.wrt⟩, a1, a2, a4⟩
  unfold writeFrame
  rw [if_neg (by simp [h.rep.opened]), hv]
  simp only [e1, bind_ok]
  rw [Nat.mod_eq_of_lt hn]

theorem putFrames_p7 : ∀ (bs : List Nat) (t : Tape) (c : List Nat) (p : Nat), Drive t .p7b true c p →
    ¬ CleanEnd t.b → t.lrecl ≠ 0 → (∀ x ∈ bs, x < 128) → t.lrecl + bs.length < 4294967296 →
    ∃ b' pf lr, putFrames bs t = .ok (List.replicate bs.length .ok, { t with b := b', lrecl := lr, posFrame := pf }) ∧
      Drive { t with b := b', lrecl := lr, posFrame := pf } .p7b true (over c p bs) (p + bs.length) ∧
      b'.eot = t.b.eot ∧ b'.bot = t.b.bot ∧ ¬ CleanEnd b' := by
  intro bs
  induction bs with
  | nil =>
    intro t c p h hg _ _ _
    exact ⟨t.b, t.posFrame, t.lrecl, rfl, by simpa [over_nil] using h, rfl, rfl, hg⟩
  | cons x l ih =>
    intro t c p h hg h0 hx hn
    simp only [List.length_cons] at hn
    obtain ⟨b1, pf1, e1, d1, a1, a2, a3⟩ := writeFrame_p7 x x h hg (hx x (by simp)) (by rw [if_neg h0]) (by omega)
    obtain ⟨b2, pf2, lr, e2, d2, q1, q2, q3⟩ := ih { t with b := b1, lrecl := t.lrecl + 1, posFrame := pf1 } _ (p + 1)
      d1 (by simp [CleanEnd, a3]) (by simp) (fun y hy => hx y (by simp [hy]))
      (by show t.lrecl + 1 + l.length < _; omega)
    refine ⟨b2, pf2, lr, ?_, ?_, q1.trans a1, q2.trans a2, q3⟩
    · simp only [putFrames, e1, bind_ok, e2, List.length_cons, List.replicate_succ]
    · have := over_over c p [x] l h.rep.pos_le
      simp only [List.length_singleton, List.singleton_append] at this
      rw [this] at d2
      simpa [Nat.add_assoc, Nat.add_comm 1] using d2

theorem writeData_p7 {t c p} (fuel junk : Nat) (bs : List Nat) (h : Drive t .p7b true c p)
    (hg : ¬ CleanEnd t.b) (hne : bs ≠ []) (hn : bs.length < 4294967295) (hx : ∀ x ∈ bs, x < 128) :
    ∃ t', opStep fuel junk (.write (.data bs)) t = .ok (wroteAll (.data bs), t') ∧
      Drive t' .p7b true (over c p (image .p7b (.data bs))) (p + (image .p7b (.data bs)).length) ∧
      t'.b.eot = t.b.eot ∧ t'.b.bot = false ∧ ¬ CleanEnd t'.b := by
  obtain ⟨x, l, rfl⟩ : ∃ x l, bs = x :: l := by cases bs with | nil => exact absurd rfl hne | cons x l => exact ⟨x, l, rfl⟩
  simp only [List.length_cons] at hn
  have e0 : writeStart t = .ok (.ok, { t with b := { t.b with bot := false }, mark := false, parity := false, srec := t.b.pos + t.b.posBuff, lrecl := 0, orecl := 0, func := .write }) := by
    unfold writeStart
    rw [if_neg (by simp [h.rep.opened]), if_neg (by simp [h.ring])]
    simp only
    rw [if_neg (by rw [h.fmt]; simp)]
  obtain ⟨b1, pf1, e1, d1, a1, a2, a3⟩ := writeFrame_p7 (t := { t with b := { t.b with bot := false }, mark := false, parity := false, srec := t.b.pos + t.b.posBuff, lrecl := 0, orecl := 0, func := .write }) x (x + 128)
      ⟨h.rep.clrBot false, h.fmt, h.ring, h.wrt⟩ hg (hx x (by simp)) (by simp) (by simp)
  obtain ⟨b2, pf2, lr, e2, d2, q1, q2, q3⟩ := putFrames_p7 l _ _ _ d1 (by simp [CleanEnd, a3]) (by simp)
    (fun y hy => hx y (by simp [hy])) (by show 0 + 1 + l.length < _; omega)
  refine ⟨{ t with b := b2, mark := false, parity := false, srec := t.b.pos + t.b.posBuff, lrecl := lr, orecl := 0,
                   posFrame := pf2, func := .none }, ?_, ⟨?_, h.fmt, h.ring, d2.wrt⟩, q1.trans a1, q2.trans a2, q3⟩
  · simp only [opStep, e0, bind_ok, putFrames, e1, e2]
    have e3 : ∀ v : Tape, v.b.opened = true → v.fmt = .p7b → v.mark = false → v.func = .write → v.parity = false →
        finishRec fuel junk v = .ok (.ok, { v with func := .none }) := by
      intro v h1 h2 h3 h4 h5
      unfold finishRec
      rw [if_neg (by simp [h1]), if_neg (by rw [h2]; simp), if_pos h2, if_neg (by simp [h3]), h4]
      simp [finishEnd, h5]
    rw [e3 _ d2.rep.opened d2.fmt rfl rfl rfl]
    simp only [bind_ok, wroteAll, List.length_cons]
    rw [← List.replicate_succ, ← List.replicate_succ, ← List.replicate_succ']
  · have := over_over c p [x + 128] l h.rep.pos_le
    simp only [List.length_singleton, List.singleton_append] at this
    have d3 := d2.rep
    rw [this] at d3
    simpa [image, Nat.add_assoc, Nat.add_comm 1] using d3

/-! ## Reading forward -/

/-- One frame inside a record. -/
theorem readFrame_p7 {t ring c p} (d : Nat) (h : Drive t .p7b ring c p) (hm : t.mark = false) (hfn : t.func = .read)
    (h2 : t.lrecl ≠ 2) (hp : p < c.length) (hq : ¬ (t.lrecl = 1 ∧ c[p] / 128 % 2 = 1)) :
    ∃ b' pf, readFrame t d = .ok (.ok, c[p] - c[p] / 128 % 2 * 128, { t with b := b', lrecl := 1, posFrame := pf }) ∧
      Drive { t with b := b', lrecl := 1, posFrame := pf } .p7b ring c (p + 1) ∧ b'.eot = t.b.eot ∧
      b'.bot = t.b.bot := by
  obtain ⟨b1, e1, r1, a1, a2, a3, _⟩ := readByte_ok h.rep d hp
  refine ⟨b1, t.posFrame + step t, ?_, ⟨r1, h.fmt, h.ring, a3.trans h.wrt⟩, a1, a2⟩
  unfold readFrame
  rw [if_neg (by simp [h.rep.opened]), if_neg (by simp [hm]), if_neg (by rw [h.fmt]; simp), if_pos h.fmt, if_pos hfn,
    if_neg h2, e1]
  simp only [bind_ok]
  rw [if_neg hq]

/-- The first byte of the next item ends the record and is put back. -/
theorem readFrame_irg {t ring c p} (d : Nat) (h : Drive t .p7b ring c p) (hm : t.mark = false) (hfn : t.func = .read)
    (h1 : t.lrecl = 1) (hp : p < c.length) (hq : c[p] / 128 % 2 = 1) (hb : t.b.bot = false) (he : t.b.eot = false) :
    ∃ b' x, readFrame t d = .ok (.eob, x, { t with b := b', lrecl := 2 }) ∧
      Drive { t with b := b', lrecl := 2 } .p7b ring c p ∧ b'.eot = false ∧ b'.bot = false ∧ b'.posBuff < W := by
  obtain ⟨b1, e1, r1, a1, a2, a3, _⟩ := readByte_ok h.rep d hp
  obtain ⟨b2, e2, r2, c1, c2, c3, _, c5⟩ := readbkByte_ok r1 c[p] (a2.trans hb) (by omega)
  refine ⟨b2, c[p + 1 - 1]'(by simpa using hp), ?_, ⟨r2, h.fmt, h.ring, c3.trans (a3.trans h.wrt)⟩, ?_, c2, c5⟩
  · unfold readFrame
    rw [if_neg (by simp [h.rep.opened]), if_neg (by simp [hm]), if_neg (by rw [h.fmt]; simp), if_pos h.fmt, if_pos hfn,
      if_neg (by omega), e1]
    simp only [bind_ok]
    rw [if_pos ⟨h1, hq⟩, e2]
    rfl
  · rcases c1 with q | q <;> simp [q, a1, he]

theorem readFrame_eob_p7 {t ring c p} (d : Nat) (h : Drive t .p7b ring c p) (hm : t.mark = false)
    (hfn : t.func = .read ∨ t.func = .rdback) (h2 : t.lrecl = 2) : readFrame t d = .ok (.eob, d, t) := by
  unfold readFrame
  rcases hfn with hfn | hfn
  · rw [if_neg (by simp [h.rep.opened]), if_neg (by simp [hm]), if_neg (by rw [h.fmt]; simp), if_pos h.fmt, if_pos hfn,
      if_pos h2]
  · rw [if_neg (by simp [h.rep.opened]), if_neg (by simp [hm]), if_neg (by rw [h.fmt]; simp), if_pos h.fmt,
      if_neg (by simp [hfn]), if_pos hfn, if_pos h2]

theorem frames_irg {t ring c p} (junk k : Nat) (h : Drive t .p7b ring c p) (hm : t.mark = false)
    (hfn : t.func = .read ∨ t.func = .rdback) (h2 : t.lrecl = 2) : frames junk k t = .ok (framesOf [] k, t) := by
  induction k with
  | zero => simp [frames, framesOf_zero]
  | succ k ih =>
    simp only [frames, readFrame_eob_p7 junk h hm hfn h2, bind_ok, ih, framesOf_nil]
    simp

/-- The bytes of a record in the file: the flag of the first is set if the drive has not read any (`lr = 0`). -/
def raw (lr : Nat) : List Nat → List Nat
  | [] => []
  | x :: l => (if lr = 0 then x + 128 else x) :: l

theorem raw_length (lr : Nat) (bs : List Nat) : (raw lr bs).length = bs.length := by cases bs <;> simp [raw]

theorem raw_one (bs : List Nat) : raw 1 bs = bs := by cases bs <;> simp [raw]

/-- The state after asking for frames: still inside the record or at its end. -/
def After (t t' : Tape) (lr : Nat) : Prop := ∃ b' pf, t' = { t with b := b', lrecl := lr, posFrame := pf }

theorem frames_p7 (junk y : Nat) (post : List Nat) (hy : y / 128 % 2 = 1) : ∀ (k : Nat) (bs : List Nat) (t : Tape)
    (ring : Bool) (c pre : List Nat), Drive t .p7b ring c pre.length → c = pre ++ raw t.lrecl bs ++ y :: post →
    t.mark = false → t.func = .read → (t.lrecl = 0 ∨ t.lrecl = 1) → (t.lrecl = 0 → bs ≠ []) →
    (∀ x ∈ bs, x < 128) → t.b.bot = false → t.b.eot = false →
    ∃ b' pf lr, frames junk k t = .ok (framesOf bs k, { t with b := b', lrecl := lr, posFrame := pf }) ∧
      Drive { t with b := b', lrecl := lr, posFrame := pf } .p7b ring c (pre.length + min k bs.length) ∧
      (lr = 2 ∧ bs.length < k ∧ b'.posBuff < W ∨ lr = 1 ∧ k ≤ bs.length ∨ lr = t.lrecl ∧ k = 0) ∧ b'.eot = false ∧ b'.bot = false := by
  intro k
  induction k with
  | zero =>
    intro bs t ring c pre h _ _ _ _ _ _ hb he
    exact ⟨t.b, t.posFrame, t.lrecl, by simp [frames, framesOf_zero], by simpa using h, by simp, he, hb⟩
  | succ k ih =>
    intro bs t ring c pre h hc hm hfn hl h0 hx hb he
    cases bs with
    | nil =>
      have h1 : t.lrecl = 1 := by rcases hl with q | q; exact absurd rfl (h0 q); exact q
      have hp : pre.length < c.length := by rw [hc]; simp [raw]
      have hcp : c[pre.length] = y := by simp [hc, raw]
      obtain ⟨b1, x1, e1, d1, a1, a2, a3⟩ := readFrame_irg junk h hm hfn h1 hp (by rw [hcp]; exact hy) hb he
      refine ⟨b1, t.posFrame, 2, ?_, by simpa using d1, Or.inl ⟨rfl, by simp, a3⟩, a1, a2⟩
      simp only [frames, e1, bind_ok, frames_irg junk k d1 hm (Or.inl hfn) rfl, framesOf_nil]
      simp
    | cons x l =>
      have hxl := hx x (by simp)
      have hp : pre.length < c.length := by rw [hc]; simp [raw]
      have hcp : c[pre.length] = if t.lrecl = 0 then x + 128 else x := by simp [hc, raw]
      have hcx : c[pre.length] - c[pre.length] / 128 % 2 * 128 = x := by
        rw [hcp]; split <;> omega
      obtain ⟨b1, pf1, e1, d1, a1, a2⟩ := readFrame_p7 junk h hm hfn (by omega) hp (by
        rintro ⟨q1, q2⟩; rw [hcp, if_neg (by omega)] at q2; omega)
      rw [hcx] at e1
      obtain ⟨b2, pf2, lr, e2, d2, q1, q2, q3⟩ := ih l { t with b := b1, lrecl := 1, posFrame := pf1 } ring c
        (pre ++ [if t.lrecl = 0 then x + 128 else x]) (by simpa using d1) (by rw [raw_one, hc]; simp [raw]) hm hfn (Or.inr rfl)
        (by simp) (fun y hy => hx y (by simp [hy])) (a2.trans hb) (a1.trans he)
      refine ⟨b2, pf2, lr, ?_, ?_, ?_, q2, q3⟩
      · simp only [frames, e1, bind_ok, e2, framesOf_cons]
        simp
      · have : pre.length + min (k + 1) (x :: l).length =
            (pre ++ [if t.lrecl = 0 then x + 128 else x]).length + min k l.length := by
          simp only [List.length_cons, List.length_append, List.length_nil]; omega
        rw [this]; exact d2
      · simp only [List.length_cons]
        rcases q1 with ⟨q, r, s⟩ | ⟨q, r⟩ | ⟨q, r⟩
        · exact Or.inl ⟨q, by omega, s⟩
        · exact Or.inr (Or.inl ⟨q, by omega⟩)
        · exact Or.inr (Or.inl ⟨q, by omega⟩)

theorem irgLoop_done (fuel d : Nat) (t : Tape) (h2 : t.lrecl = 2) : irgLoop fuel t d = .ok (false, t) := by
  unfold irgLoop; rw [if_pos h2]

theorem irgLoop_p7 (y : Nat) (post : List Nat) (hy : y / 128 % 2 = 1) : ∀ (bs : List Nat) (fuel : Nat) (d : Nat) (t : Tape)
    (ring : Bool) (c pre : List Nat), bs.length < fuel → Drive t .p7b ring c pre.length →
    c = pre ++ raw t.lrecl bs ++ y :: post →
    t.mark = false → t.func = .read → (t.lrecl = 0 ∨ t.lrecl = 1) → (t.lrecl = 0 → bs ≠ []) →
    (∀ x ∈ bs, x < 128) → t.b.bot = false → t.b.eot = false →
    ∃ b' pf, irgLoop fuel t d = .ok (false, { t with b := b', lrecl := 2, posFrame := pf }) ∧
      Drive { t with b := b', lrecl := 2, posFrame := pf } .p7b ring c (pre.length + bs.length) ∧
      b'.eot = false ∧ b'.bot = false ∧ b'.posBuff < W := by
  intro bs
  induction bs with
  | nil =>
    intro fuel d t ring c pre hf h hc hm hfn hl h0 hx hb he
    obtain ⟨n, rfl⟩ : ∃ n, fuel = n + 1 := ⟨fuel - 1, by simp at hf; omega⟩
    have h1 : t.lrecl = 1 := by rcases hl with q | q; exact absurd rfl (h0 q); exact q
    have hp : pre.length < c.length := by rw [hc]; simp [raw]
    have hcp : c[pre.length] = y := by simp [hc, raw]
    obtain ⟨b1, x1, e1, d1, a1, a2, a3⟩ := readFrame_irg d h hm hfn h1 hp (by rw [hcp]; exact hy) hb he
    refine ⟨b1, t.posFrame, ?_, by simpa using d1, a1, a2, a3⟩
    unfold irgLoop
    rw [if_neg (by omega)]
    simp only [e1, bind_ok]
    rw [if_neg (by simp), irgLoop_done _ _ _ rfl]
  | cons x l ih =>
    intro fuel d t ring c pre hf h hc hm hfn hl h0 hx hb he
    obtain ⟨n, rfl⟩ : ∃ n, fuel = n + 1 := ⟨fuel - 1, by simp at hf; omega⟩
    have hxl := hx x (by simp)
    have hp : pre.length < c.length := by rw [hc]; simp [raw]
    have hcp : c[pre.length] = if t.lrecl = 0 then x + 128 else x := by simp [hc, raw]
    have hcx : c[pre.length] - c[pre.length] / 128 % 2 * 128 = x := by
      rw [hcp]; split <;> omega
    obtain ⟨b1, pf1, e1, d1, a1, a2⟩ := readFrame_p7 d h hm hfn (by omega) hp (by
      rintro ⟨q1, q2⟩; rw [hcp, if_neg (by omega)] at q2; omega)
    rw [hcx] at e1
    obtain ⟨b2, pf2, e2, d2, q1, q2, q3⟩ := ih n x { t with b := b1, lrecl := 1, posFrame := pf1 } ring c
      (pre ++ [if t.lrecl = 0 then x + 128 else x]) (by simp only [List.length_cons] at hf; omega)
      (by simpa using d1) (by rw [raw_one, hc]; simp [raw]) hm hfn (Or.inr rfl)
      (by simp) (fun y hy => hx y (by simp [hy])) (a2.trans hb) (a1.trans he)
    refine ⟨b2, pf2, ?_, ?_, q1, q2, q3⟩
    · unfold irgLoop
      rw [if_neg (by omega)]
      simp only [e1, bind_ok]
      rw [if_neg (by simp)]; exact e2
    · have : pre.length + (x :: l).length = (pre ++ [if t.lrecl = 0 then x + 128 else x]).length + l.length := by
        simp only [List.length_cons, List.length_append, List.length_nil]; omega
      rw [this]; exact d2

theorem image_p7 (bs : List Nat) : image .p7b (.data bs) = raw 0 bs := by cases bs <;> simp [image, raw]

theorem finish_p7 {t ring c p} (fuel junk : Nat) (h : Drive t .p7b ring c p) (hm : t.mark = false)
    (hfn : t.func = .read ∨ t.func = .rdback) (hpar : t.parity = false) {t1 : Tape}
    (e : irgLoop fuel t junk = .ok (false, t1)) (hp1 : t1.parity = false) :
    finishRec fuel junk t = .ok (.ok, { t1 with func := .none }) := by
  unfold finishRec
  rw [if_neg (by simp [h.rep.opened]), if_neg (by rw [h.fmt]; simp), if_pos h.fmt, if_neg (by simp [hm])]
  rcases hfn with q | q <;> rw [q] <;> simp only <;> rw [e, bind_ok] <;> simp [finishEnd, hp1]

theorem raw_drop (bs : List Nat) (k : Nat) (h : 0 < k) : raw 0 bs = raw 0 (bs.take k) ++ bs.drop k := by
  cases bs with
  | nil => simp [raw]
  | cons x l =>
    obtain ⟨n, rfl⟩ : ∃ n, k = n + 1 := ⟨k - 1, by omega⟩
    simp [raw]

theorem readForw_p7 {t ring c pre} (x : Nat) (post : List Nat) (h : Drive t .p7b ring c pre.length)
    (hc : c = pre ++ x :: post) (hx : x ≠ 0x8f) (he : t.b.eot = false) :
    ∃ t', readForw t = .ok (.ok, t') ∧ Drive t' .p7b ring c pre.length ∧ t'.b.eot = false ∧ t'.b.bot = false ∧
      t'.mark = false ∧ t'.lrecl = 0 ∧ t'.func = .read ∧ t'.parity = false := by
  have hp : pre.length < c.length := by rw [hc]; simp
  have hcx : c[pre.length] = x := by simp [hc]
  obtain ⟨b', e, r, a1, a2, a3, _⟩ := peekByte_ok (h.rep.clrBot false) 0 hp
  refine ⟨{ t with b := b', mark := false, parity := false, func := .read, srec := t.b.pos + t.b.posBuff, lrecl := 0 }, ?_,
    ⟨r, h.fmt, h.ring, a3.trans h.wrt⟩, a1.trans he, a2, rfl, rfl, rfl, rfl⟩
  unfold readForw
  rw [if_neg (by simp [h.rep.opened])]
  simp only
  rw [if_neg (by simp [he]), if_neg (by rw [h.fmt]; simp), if_pos h.fmt, e]
  simp [hcx, hx]

theorem fwd_data_p7 {t ring c pre post} (fuel junk k y : Nat) (fin : Bool) (bs : List Nat)
    (h : Drive t .p7b ring c pre.length) (hc : c = pre ++ image .p7b (.data bs) ++ y :: post) (hy : y / 128 % 2 = 1)
    (hne : bs ≠ []) (hx : ∀ x ∈ bs, x < 128) (hh : bs.head? ≠ some 0x0f) (he : t.b.eot = false)
    (hfu : bs.length < fuel) :
    ∃ t', opStep fuel junk (.fwd k fin) t = .ok (readItem k fin false (.data bs), t') ∧
      Drive t' .p7b ring c (pre.length + (image .p7b (.data bs)).length) ∧ t'.b.eot = false ∧ t'.b.bot = false ∧
      t'.b.posBuff < W := by
  rw [image_p7] at hc ⊢
  have hc0 : ∃ x0 l0, bs = x0 :: l0 := by
    cases bs with | nil => exact absurd rfl hne | cons x l => exact ⟨x, l, rfl⟩
  obtain ⟨t1, e1, d1, a1, a2, a3, a4, a5, a6⟩ : ∃ t', readForw t = .ok (.ok, t') ∧ Drive t' .p7b ring c pre.length ∧
      t'.b.eot = false ∧ t'.b.bot = false ∧ t'.mark = false ∧ t'.lrecl = 0 ∧ t'.func = .read ∧ t'.parity = false := by
    obtain ⟨x0, l0, rfl⟩ := hc0
    refine readForw_p7 (x0 + 128) (l0 ++ y :: post) h (by simp [hc, raw]) ?_ he
    intro q
    apply hh
    simp; omega
  obtain ⟨b2, pf2, lr, e2, d2, q1, q2, q3⟩ := frames_p7 junk y post hy k bs t1 ring c pre d1 (by rw [a4, hc]) a3 a5
    (Or.inl a4) (fun _ => hne) hx a2 a1
  obtain ⟨t3, e3, d3, g1, g2, g3, g4⟩ : ∃ t3, irgLoop fuel { t1 with b := b2, lrecl := lr, posFrame := pf2 } junk =
      .ok (false, t3) ∧ Drive t3 .p7b ring c (pre.length + bs.length) ∧ t3.b.eot = false ∧ t3.b.bot = false ∧
      t3.b.posBuff < W ∧ t3.parity = false := by
    rcases q1 with ⟨w1, w2, w3⟩ | ⟨w1, w2⟩ | ⟨w1, w2⟩
    · refine ⟨_, irgLoop_done _ _ _ w1, ?_, q2, q3, w3, a6⟩
      rw [show min k bs.length = bs.length by omega] at d2
      exact d2
    · subst w1
      by_cases hk : k = 0
      · exfalso
        subst hk
        rw [frames] at e2
        have hq : t1 = { t1 with b := b2, lrecl := 1, posFrame := pf2 } := (Prod.mk.inj (Res.ok.inj e2)).2
        have hq2 : t1.lrecl = 1 := congrArg Tape.lrecl hq
        omega
      · have hcut := raw_drop bs k (by omega)
        have hlen : (raw 0 (bs.take k)).length = k := by rw [raw_length, List.length_take]; omega
        obtain ⟨b', pf, e3, d3, g1, g2, g3⟩ := irgLoop_p7 y post hy (bs.drop k) fuel junk
          { t1 with b := b2, lrecl := 1, posFrame := pf2 } ring c (pre ++ raw 0 (bs.take k))
          (by rw [List.length_drop]; omega) (by rw [show min k bs.length = k by omega] at d2; simpa [hlen] using d2)
          (by rw [hc, hcut]; simp [raw_one]) a3 a5 (Or.inr rfl) (by simp) (fun x hx' => hx x (List.mem_of_mem_drop hx')) q3 q2
        refine ⟨_, e3, ?_, g1, g2, g3, a6⟩
        rw [show (pre ++ raw 0 (bs.take k)).length + (bs.drop k).length = pre.length + bs.length by
          rw [List.length_append, hlen, List.length_drop]; omega] at d3
        exact d3
    · subst w2
      rw [a4] at w1
      subst w1
      obtain ⟨b', pf, e3, d3, g1, g2, g3⟩ := irgLoop_p7 y post hy bs fuel junk
          { t1 with b := b2, lrecl := 0, posFrame := pf2 } ring c pre hfu (by simpa using d2) hc a3 a5 (Or.inl rfl)
          (fun _ => hne) hx q3 q2
      exact ⟨_, e3, d3, g1, g2, g3, a6⟩
  refine ⟨{ t3 with func := .none }, ?_, ?_, g1, g2, g3⟩
  · simp only [opStep, readOp, e1, bind_ok, if_true, e2, finish_p7 fuel junk d2 a3 (Or.inl a5) a6 e3 g4]
    rfl
  · rw [raw_length]
    exact ⟨d3.rep, d3.fmt, d3.ring, d3.wrt⟩

theorem finish_mark_p7 {t ring c p} (fuel junk : Nat) (h : Drive t .p7b ring c p) (hm : t.mark = true)
    (hpar : t.parity = false) :
    finishRec fuel junk t = .ok (.ok, { t with func := .none, mark := false }) := by
  unfold finishRec
  rw [if_neg (by simp [h.rep.opened]), if_neg (by rw [h.fmt]; simp), if_pos h.fmt, if_pos hm]
  simp [finishEnd, hpar]

theorem markOp_p7 {t t1 ring c p} (start : Tape → Res (St × Tape)) (fuel junk k : Nat) (fin rev : Bool)
    (e1 : start t = .ok (.mark, t1)) (d1 : Drive t1 .p7b ring c p) (hm : t1.mark = true) (hpar : t1.parity = false) :
    ∃ t', readOp start fuel junk k fin t = .ok (readItem k fin rev .mark, t') ∧ Drive t' .p7b ring c p ∧ t'.b = t1.b := by
  cases fin with
  | true =>
    refine ⟨{ t1 with func := .none, mark := false }, ?_, ⟨d1.rep, d1.fmt, d1.ring, d1.wrt⟩, rfl⟩
    simp only [readOp, e1, bind_ok, frames_mark junk k t1 d1.rep.opened hm, finish_mark_p7 fuel junk d1 hm hpar]
    simp [readItem]
  | false =>
    refine ⟨t1, ?_, d1, rfl⟩
    simp only [readOp, e1, bind_ok, frames_mark junk k t1 d1.rep.opened hm]
    simp [readItem]

theorem fwd_mark_p7 {t ring c pre post} (fuel junk k : Nat) (fin : Bool) (h : Drive t .p7b ring c pre.length)
    (hc : c = pre ++ [0x8f] ++ post) (he : t.b.eot = false) :
    ∃ t', opStep fuel junk (.fwd k fin) t = .ok (readItem k fin false .mark, t') ∧
      Drive t' .p7b ring c (pre.length + 1) ∧ t'.b.eot = false ∧ t'.b.bot = false := by
  have hp : pre.length < c.length := by rw [hc]; simp
  have hcx : c[pre.length] = 0x8f := by simp [hc]
  obtain ⟨b', e, r, a1, a2, a3, _⟩ := peekByte_ok (h.rep.clrBot false) 0 hp
  obtain ⟨b2, e2, r2, c1, c2, c3, _⟩ := readByte_ok r 0x8f hp
  have e3 : readForw t = .ok (.mark, { t with b := b2, mark := true, parity := false, func := .read, srec := t.b.pos + t.b.posBuff, lrecl := 2, posFrame := t.posFrame + 1200 }) := by
    unfold readForw
    rw [if_neg (by simp [h.rep.opened])]
    simp only
    rw [if_neg (by simp [he]), if_neg (by rw [h.fmt]; simp), if_pos h.fmt, e]
    simp [hcx, e2]
  obtain ⟨t2, e4, d2, eb⟩ := markOp_p7 readForw fuel junk k fin false e3
    ⟨r2, h.fmt, h.ring, c3.trans (a3.trans h.wrt)⟩ rfl rfl
  exact ⟨t2, e4, d2, by rw [eb]; exact c1.trans (a1.trans he), by rw [eb]; exact c2.trans a2⟩

theorem fwd_end_p7 {t ring c} (fuel junk k : Nat) (fin : Bool) (h : Drive t .p7b ring c c.length) (he : t.b.eot = false) :
    ∃ t', opStep fuel junk (.fwd k fin) t = .ok (.read .eot [] none, t') ∧
      Drive t' .p7b ring c c.length ∧ t'.b.eot = false ∧ t'.b.bot = false ∧ ¬ CleanEnd t'.b := by
  obtain ⟨b', e, r, a1, a2, a3, a4, _⟩ := peekByte_end (h.rep.clrBot false) 0 rfl
  have : readForw t = .ok (.eot, { t with b := b', mark := false, parity := false, func := .read, srec := t.b.pos + t.b.posBuff, lrecl := 2 }) := by
    unfold readForw
    rw [if_neg (by simp [h.rep.opened])]
    simp only
    rw [if_neg (by simp [he]), if_neg (by rw [h.fmt]; simp), if_pos h.fmt, e]
    simp
  refine ⟨{ t with b := b', mark := false, parity := false, func := .read, srec := t.b.pos + t.b.posBuff, lrecl := 2 }, ?_,
    ⟨r, h.fmt, h.ring, a3.trans h.wrt⟩, a1.trans he, a2, ?_⟩
  · simp [opStep, readOp, this]
  · rintro ⟨h1, _⟩
    have := W_pos
    rw [show b'.posBuff = 0 from a4] at h1
    omega

/-! ## Reading backward -/

theorem readFrame_bk_p7 {t ring c p} (d : Nat) (h : Drive t .p7b ring c p) (hm : t.mark = false)
    (hfn : t.func = .rdback) (hl : t.lrecl ≠ 2) (hp : 0 < p) (hb : t.b.bot = false) (he : t.b.eot = false)
    (x y : Nat) (hx : ∀ hq, c[p - 1]'hq = y) (hxx : x = y - y / 128 % 2 * 128) :
    ∃ b' pf, readFrame t d = .ok (.ok, x, { t with b := b', lrecl := if y / 128 % 2 = 1 then 2 else 1, posFrame := pf }) ∧
      Drive { t with b := b', lrecl := if y / 128 % 2 = 1 then 2 else 1, posFrame := pf } .p7b ring c (p - 1) ∧
      b'.eot = false ∧ b'.bot = false ∧ b'.posBuff < W := by
  obtain ⟨b1, e1, r1, a1, a2, a3, _, a5⟩ := readbkByte_ok h.rep d hb hp
  rw [hx] at e1
  refine ⟨b1, t.posFrame - step t, ?_, ⟨r1, h.fmt, h.ring, a3.trans h.wrt⟩,
    by rcases a1 with q | q <;> simp [q, he], a2, a5⟩
  unfold readFrame
  rw [if_neg (by simp [h.rep.opened]), if_neg (by simp [hm]), if_neg (by rw [h.fmt]; simp), if_pos h.fmt,
    if_neg (by simp [hfn]), if_pos hfn, if_neg hl, e1, hxx]
  rfl

/-- `rs`: the rest of the record in reading (backward) order, not empty; its last element is the flagged first byte. -/
theorem frames_bk_p7 (junk : Nat) (pre : List Nat) : ∀ (k : Nat) (bs : List Nat) (t : Tape) (ring : Bool)
    (c post : List Nat), bs ≠ [] → Drive t .p7b ring c (pre.length + bs.length) → c = pre ++ raw 0 bs ++ post →
    t.mark = false → t.func = .rdback → t.lrecl ≠ 2 → t.b.bot = false → t.b.eot = false → (∀ x ∈ bs, x < 128) →
    ∃ b' pf lr, frames junk k t = .ok (framesOf bs.reverse k, { t with b := b', lrecl := lr, posFrame := pf }) ∧
      Drive { t with b := b', lrecl := lr, posFrame := pf } .p7b ring c (pre.length + (bs.length - k)) ∧
      (lr = 2 ∧ bs.length ≤ k ∧ b'.posBuff < W ∨ lr ≠ 2 ∧ k < bs.length) ∧
      b'.eot = false ∧ b'.bot = false := by
  intro k
  induction k with
  | zero =>
    intro bs t ring c post hne h _ _ _ hl hb he _
    exact ⟨t.b, t.posFrame, t.lrecl, by simp [frames, framesOf_zero], by simpa using h,
      Or.inr ⟨hl, List.length_pos_iff.mpr hne⟩, he, hb⟩
  | succ k ih =>
    intro bs t ring c post hne h hc hm hfn hl hb he hx
    obtain ⟨l, x, rfl⟩ : ∃ l x, bs = l ++ [x] := ⟨bs.dropLast, bs.getLast hne, (List.dropLast_concat_getLast hne).symm⟩
    have hxl := hx x (by simp)
    by_cases hl0 : l = []
    · subst hl0
      obtain ⟨b1, pf1, e1, d1, a1, a2, a3⟩ := readFrame_bk_p7 junk h hm hfn hl (by simp) hb he x (x + 128)
        (by intro hq; simp [hc, raw]) (by omega)
      rw [if_pos (by omega)] at e1 d1
      refine ⟨b1, pf1, 2, ?_, ?_, Or.inl ⟨rfl, by simp, a3⟩, a1, a2⟩
      · simp only [frames, e1, bind_ok, frames_irg junk k d1 hm (Or.inr hfn) rfl]
        simp [framesOf_cons]
      · simpa using d1
    · have hraw : raw 0 (l ++ [x]) = raw 0 l ++ [x] := by
        cases l with | nil => exact absurd rfl hl0 | cons y l => simp [raw]
      obtain ⟨b1, pf1, e1, d1, a1, a2, a3⟩ := readFrame_bk_p7 junk h hm hfn hl (by simp; omega) hb he x x
        (by intro hq; simp [hc, hraw, raw_length]) (by omega)
      rw [if_neg (by omega)] at e1 d1
      obtain ⟨b2, pf2, lr, e2, d2, q1, q2, q3⟩ := ih l { t with b := b1, lrecl := 1, posFrame := pf1 } ring c
        (x :: post) hl0 (by simpa [← Nat.add_assoc] using d1) (by simp [hc, hraw]) hm hfn (by simp) a2 a1
        (fun y hy => hx y (by simp [hy]))
      refine ⟨b2, pf2, lr, ?_, ?_, ?_, q2, q3⟩
      · simp only [frames, e1, bind_ok, e2, List.reverse_append, List.reverse_cons, List.reverse_nil, List.nil_append,
          List.singleton_append, framesOf_cons]
        simp
      · have : (l ++ [x]).length - (k + 1) = l.length - k := by simp
        rw [this]; exact d2
      · simp only [List.length_append, List.length_singleton]
        rcases q1 with ⟨q, r, s⟩ | ⟨q, r⟩
        · exact Or.inl ⟨q, by omega, s⟩
        · exact Or.inr ⟨q, by omega⟩

theorem irgLoop_bk_p7 (pre : List Nat) : ∀ (n : Nat) (bs : List Nat) (fuel d : Nat) (t : Tape) (ring : Bool)
    (c post : List Nat), bs.length = n → bs ≠ [] → bs.length < fuel → Drive t .p7b ring c (pre.length + bs.length) →
    c = pre ++ raw 0 bs ++ post →
    t.mark = false → t.func = .rdback → t.lrecl ≠ 2 → t.b.bot = false → t.b.eot = false → (∀ x ∈ bs, x < 128) →
    ∃ b' pf, irgLoop fuel t d = .ok (false, { t with b := b', lrecl := 2, posFrame := pf }) ∧
      Drive { t with b := b', lrecl := 2, posFrame := pf } .p7b ring c pre.length ∧
      b'.eot = false ∧ b'.bot = false ∧ b'.posBuff < W := by
  intro n
  induction n with
  | zero => intro bs fuel d t ring c post hn hne; exact absurd (List.length_eq_zero_iff.mp hn) hne
  | succ n ih =>
    intro bs fuel d t ring c post hn hne hfu h hc hm hfn hl hb he hx
    obtain ⟨fu, rfl⟩ : ∃ m, fuel = m + 1 := ⟨fuel - 1, by omega⟩
    obtain ⟨l, x, rfl⟩ : ∃ l x, bs = l ++ [x] := ⟨bs.dropLast, bs.getLast hne, (List.dropLast_concat_getLast hne).symm⟩
    have hxl := hx x (by simp)
    by_cases hl0 : l = []
    · subst hl0
      obtain ⟨b1, pf1, e1, d1, a1, a2, a3⟩ := readFrame_bk_p7 d h hm hfn hl (by simp) hb he x (x + 128)
        (by intro hq; simp [hc, raw]) (by omega)
      rw [if_pos (by omega)] at e1 d1
      refine ⟨b1, pf1, ?_, by simpa using d1, a1, a2, a3⟩
      unfold irgLoop
      rw [if_neg hl]
      simp only [e1, bind_ok]
      rw [if_neg (by simp), irgLoop_done _ _ _ rfl]
    · have hraw : raw 0 (l ++ [x]) = raw 0 l ++ [x] := by
        cases l with | nil => exact absurd rfl hl0 | cons y l => simp [raw]
      obtain ⟨b1, pf1, e1, d1, a1, a2, a3⟩ := readFrame_bk_p7 d h hm hfn hl (by simp; omega) hb he x x
        (by intro hq; simp [hc, hraw, raw_length]) (by omega)
      rw [if_neg (by omega)] at e1 d1
      obtain ⟨b2, pf2, e2, d2, q1, q2, q3⟩ := ih l fu x { t with b := b1, lrecl := 1, posFrame := pf1 } ring c
        (x :: post) (by simpa using hn) hl0 (by simp at hfu; omega) (by simpa [← Nat.add_assoc] using d1) (by simp [hc, hraw]) hm hfn (by simp) a2 a1
        (fun y hy => hx y (by simp [hy]))
      refine ⟨b2, pf2, ?_, d2, q1, q2, q3⟩
      unfold irgLoop
      rw [if_neg hl]
      simp only [e1, bind_ok]
      rw [if_neg (by simp)]; exact e2

theorem readBack_p7 {t ring c pre post} (x : Nat) (h : Drive t .p7b ring c (pre.length + 1))
    (hc : c = pre ++ [x] ++ post) (hx : x ≠ 0x8f) (hb : t.b.bot = false) :
    ∃ t', readBack t = .ok (.ok, t') ∧ Drive t' .p7b ring c (pre.length + 1) ∧ t'.b.eot = false ∧ t'.b.bot = false ∧
      t'.mark = false ∧ t'.lrecl = 0 ∧ t'.func = .rdback ∧ t'.parity = false := by
  obtain ⟨b1, e1, r1, a1, a2, a3, _⟩ := readbkByte_ok (h.rep.clrEot false) 0 hb (by omega)
  have hcx : ∀ hq, c[pre.length + 1 - 1]'hq = x := by intro hq; simp [hc]
  rw [hcx] at e1
  simp only [Nat.add_sub_cancel] at r1
  have hp : pre.length < c.length := by rw [hc]; simp
  obtain ⟨b2, e2, r2, c1, c2, c3, _⟩ := readByte_ok r1 x hp
  have ae : b1.eot = false := by rcases a1 with q | q <;> exact q
  refine ⟨{ t with b := b2, mark := false, parity := false, func := .rdback, srec := t.b.pos + t.b.posBuff, lrecl := 0 },
    ?_, ⟨r2, h.fmt, h.ring, c3.trans (a3.trans h.wrt)⟩, c1.trans ae, c2.trans a2, rfl, rfl, rfl, rfl⟩
  unfold readBack
  rw [if_neg (by simp [h.rep.opened])]
  simp only
  rw [if_neg (by simp [hb]), if_neg (by rw [h.fmt]; simp), if_pos h.fmt, e1, bind_ok]
  simp [hx, e2]

theorem bwd_data_p7 {t ring c pre post} (fuel junk k : Nat) (fin : Bool) (bs : List Nat)
    (h : Drive t .p7b ring c (pre.length + (image .p7b (.data bs)).length))
    (hc : c = pre ++ image .p7b (.data bs) ++ post)
    (hne : bs ≠ []) (hx : ∀ x ∈ bs, x < 128) (hh : bs.head? ≠ some 0x0f) (hb : t.b.bot = false)
    (hfu : bs.length < fuel) :
    ∃ t', opStep fuel junk (.bwd k fin) t = .ok (readItem k fin true (.data bs), t') ∧
      Drive t' .p7b ring c pre.length ∧ t'.b.eot = false ∧ t'.b.bot = false ∧ t'.b.posBuff < W := by
  rw [image_p7] at hc h
  rw [raw_length] at h
  have hlp := List.length_pos_iff.mpr hne
  -- last byte
  obtain ⟨l, x, hlx, hx8, hll⟩ : ∃ l x, raw 0 bs = l ++ [x] ∧ x ≠ 0x8f ∧ l.length + 1 = bs.length := by
    have hr : raw 0 bs ≠ [] := by intro q; have := raw_length 0 bs; rw [q] at this; simp at this; omega
    refine ⟨(raw 0 bs).dropLast, (raw 0 bs).getLast hr, (List.dropLast_concat_getLast hr).symm, ?_, ?_⟩
    · intro q
      cases bs with
      | nil => exact hne rfl
      | cons y m =>
        cases m with
        | nil =>
          simp [raw] at q
          apply hh; simp; omega
        | cons z m =>
          have hmem : (raw 0 (y :: z :: m)).getLast hr ∈ (z :: m) := by
            simp only [raw]
            rw [List.getLast_cons (by simp)]
            exact List.getLast_mem _
          rw [q] at hmem
          have := hx 0x8f (by simp only [List.mem_cons] at hmem ⊢; right; exact hmem)
          omega
    · rw [List.length_dropLast, raw_length]; omega
  obtain ⟨t1, e1, d1, a1, a2, a3, a4, a5, a6⟩ := readBack_p7 (pre := pre ++ l) (post := post) x
    (by rw [List.length_append, Nat.add_assoc, hll]; exact h) (by rw [hc, hlx]; simp) hx8 hb
  rw [List.length_append, Nat.add_assoc, hll] at d1
  obtain ⟨b2, pf2, lr, e2, d2, q1, q2, q3⟩ := frames_bk_p7 junk pre k bs t1 ring c post hne d1 hc a3 a5 (by omega) a2 a1 hx
  obtain ⟨t3, e3, d3, g1, g2, g3, g4⟩ : ∃ t3, irgLoop fuel { t1 with b := b2, lrecl := lr, posFrame := pf2 } junk =
      .ok (false, t3) ∧ Drive t3 .p7b ring c pre.length ∧ t3.b.eot = false ∧ t3.b.bot = false ∧
      t3.b.posBuff < W ∧ t3.parity = false := by
    rcases q1 with ⟨w1, w2, w3⟩ | ⟨w1, w2⟩
    · refine ⟨_, irgLoop_done _ _ _ w1, ?_, q2, q3, w3, a6⟩
      rw [show bs.length - k = 0 by omega] at d2
      exact d2
    · have hln : (bs.take (bs.length - k)).length = bs.length - k := by rw [List.length_take]; omega
      have hcut := raw_drop bs (bs.length - k) (by omega)
      obtain ⟨b', pf, e3, d3, g1, g2, g3⟩ := irgLoop_bk_p7 pre _ (bs.take (bs.length - k)) fuel junk
        { t1 with b := b2, lrecl := lr, posFrame := pf2 } ring c (bs.drop (bs.length - k) ++ post) rfl
        (by intro q; rw [q] at hln; simp at hln; omega) (by omega) (by rw [hln]; exact d2) (by rw [hc, hcut]; simp) a3 a5 w1
        q3 q2 (fun x hx' => hx x (List.mem_of_mem_take hx'))
      exact ⟨_, e3, d3, g1, g2, g3, a6⟩
  refine ⟨{ t3 with func := .none }, ?_, ⟨d3.rep, d3.fmt, d3.ring, d3.wrt⟩, g1, g2, g3⟩
  simp only [opStep, readOp, e1, bind_ok, if_true, e2, finish_p7 fuel junk d2 a3 (Or.inr a5) a6 e3 g4]
  rfl

theorem bwd_mark_p7 {t ring c pre post} (fuel junk k : Nat) (fin : Bool) (h : Drive t .p7b ring c (pre.length + 1))
    (hc : c = pre ++ [0x8f] ++ post) (hb : t.b.bot = false) :
    ∃ t', opStep fuel junk (.bwd k fin) t = .ok (readItem k fin true .mark, t') ∧
      Drive t' .p7b ring c pre.length ∧ t'.b.eot = false ∧ t'.b.bot = false ∧ t'.b.posBuff < W := by
  obtain ⟨b1, e1, r1, a1, a2, a3, _, a5⟩ := readbkByte_ok (h.rep.clrEot false) 0 hb (by omega)
  have hcx : ∀ hq, c[pre.length + 1 - 1]'hq = 0x8f := by intro hq; simp [hc]
  rw [hcx] at e1
  simp only [Nat.add_sub_cancel] at r1
  have ae : b1.eot = false := by rcases a1 with q | q <;> exact q
  have e3 : readBack t = .ok (.mark, { t with b := b1, mark := true, parity := false, func := .rdback, srec := b1.pos + b1.posBuff, lrecl := 2, posFrame := t.posFrame - 1200 }) := by
    unfold readBack
    rw [if_neg (by simp [h.rep.opened])]
    simp only
    rw [if_neg (by simp [hb]), if_neg (by rw [h.fmt]; simp), if_pos h.fmt, e1, bind_ok]
    simp
  obtain ⟨t2, e4, d2, eb⟩ := markOp_p7 readBack fuel junk k fin true e3 ⟨r1, h.fmt, h.ring, a3.trans h.wrt⟩ rfl rfl
  exact ⟨t2, e4, d2, by rw [eb]; exact ae, by rw [eb]; exact a2, by rw [eb]; exact a5⟩

theorem bwd_bot_p7 {t ring c} (fuel junk k : Nat) (fin : Bool) (h : Drive t .p7b ring c 0) :
    ∃ t', opStep fuel junk (.bwd k fin) t = .ok (.read .bot [] none, t') ∧
      Drive t' .p7b ring c 0 ∧ t'.b.eot = false ∧ t'.b.bot = true ∧ t'.b.posBuff < W := by
  have h0 : t.b.posBuff = 0 := by have := h.rep.pat; omega
  by_cases hb : t.b.bot = true
  · refine ⟨{ t with b := { t.b with eot := false }, mark := false }, ?_,
      ⟨h.rep.clrEot false, h.fmt, h.ring, h.wrt⟩, rfl, hb, by show t.b.posBuff < W; rw [h0]; exact W_pos⟩
    have : readBack t = .ok (.bot, { t with b := { t.b with eot := false }, mark := false }) := by
      unfold readBack
      rw [if_neg (by simp [h.rep.opened])]
      simp only
      rw [if_pos hb]
    simp [opStep, readOp, this]
  · obtain ⟨x, b', e, r, a1, a2, a3, a4⟩ := readbkByte_bot (h.rep.clrEot false) 0
    have : readBack t = .ok (.bot, { t with b := b', mark := false, parity := false, func := .rdback, srec := t.b.pos + t.b.posBuff }) := by
      unfold readBack
      rw [if_neg (by simp [h.rep.opened])]
      simp only
      rw [if_neg hb, if_neg (by rw [h.fmt]; simp), if_pos h.fmt, e]
      simp
    refine ⟨{ t with b := b', mark := false, parity := false, func := .rdback, srec := t.b.pos + t.b.posBuff },
      by simp only [opStep, readOp, this, bind_ok]; simp, ⟨r, h.fmt, h.ring, a3.trans h.wrt⟩, a2, a1, ?_⟩
    show b'.posBuff < W
    rw [a4]; exact W_pos

end Verif.Tape
