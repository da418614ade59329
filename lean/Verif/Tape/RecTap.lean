import Verif.Tape.Loops
import Verif.Tape.Spec
/-! # Records and marks in the TAP and E11 formats -/
namespace Verif.Tape

/-- The drive shows content `c` at byte `p`; format and write ring are as given. -/
structure Drive (t : Tape) (f : Fmt) (rg : Bool) (c : List Nat) (p : Nat) : Prop where
  rep : Rep t.b c p
  fmt : t.fmt = f
  ring : t.ring = rg
  wrt : t.b.writable = rg

def IsTE (f : Fmt) : Prop := f = .tap ∨ f = .e11

def padOf (f : Fmt) (n : Nat) : List Nat := if f = .tap ∧ n % 2 = 1 then [0] else []

theorem le32_eq (n : Nat) : le32 n = bytes4 n := by
  simp [le32, bytes4, List.range, List.range.loop]

theorem le32_length (n : Nat) : (le32 n).length = 4 := by simp [le32]

theorem num4_le32 (n : Nat) (h : n < 4294967296) : num4 (le32 n) = n := by
  rw [le32_eq]; simp only [bytes4, num4]; omega

theorem image_te (f : Fmt) (hf : IsTE f) (bs : List Nat) :
    image f (.data bs) = le32 bs.length ++ bs ++ padOf f bs.length ++ le32 bs.length := by
  rcases hf with h | h <;> subst h <;> simp [image, padOf]

theorem image_te_mark (f : Fmt) (hf : IsTE f) : image f .mark = [0, 0, 0, 0] := by
  rcases hf with h | h <;> subst h <;> rfl

theorem Rep.clrBot {b c p} (h : Rep b c p) (v : Bool) : Rep { b with bot := v } c p :=
  ⟨h.opened, h.wrt, h.blen, h.le1, h.le2, h.le3, h.pat, h.cont, h.clean⟩

theorem Rep.clrEot {b c p} (h : Rep b c p) (v : Bool) : Rep { b with eot := v } c p :=
  ⟨h.opened, h.wrt, h.blen, h.le1, h.le2, h.le3, h.pat, h.cont, h.clean⟩

/-! ## Writing -/

theorem writeMark_te {t f c p} (h : Drive t f true c p) (hf : IsTE f) (hg : ¬ CleanEnd t.b) :
    ∃ t', writeMark t = .ok (.ok, t') ∧ Drive t' f true (over c p [0, 0, 0, 0]) (p + 4) ∧ t'.b.eot = t.b.eot ∧
      t'.b.bot = false ∧ ¬ CleanEnd t'.b := by
  obtain ⟨b', e, r, a1, a2, a3, a4, _⟩ := wrLoop_ok [0, 0, 0, 0] _ c p (h.rep.clrBot false) h.wrt hg
  refine ⟨{ t with b := b', mark := false, srec := t.b.pos + t.b.posBuff, lrecl := 0, orecl := 0,
                   posFrame := t.posFrame + 1200, func := .mark }, ?_, ⟨r, h.fmt, h.ring, a3⟩, a1, a2, a4⟩
  unfold writeMark
  rw [if_neg (by simp [h.rep.opened]), if_neg (by simp [h.ring])]
  simp only
  rw [if_pos (by rw [h.fmt]; exact hf), e]
  simp

theorem writeStart_te {t f c p} (h : Drive t f true c p) (hf : IsTE f) (hg : ¬ CleanEnd t.b) :
    ∃ t', writeStart t = .ok (.ok, t') ∧ Drive t' f true (over c p [0, 0, 0, 0]) (p + 4) ∧ t'.b.eot = t.b.eot ∧
      t'.b.bot = false ∧ t'.b.dirty = true ∧ t'.srec = p ∧ t'.lrecl = 0 ∧ t'.func = .write ∧ t'.mark = false ∧
      t'.parity = false := by
  obtain ⟨b', e, r, a1, a2, a3, a4, a5⟩ := wrLoop_ok [0, 0, 0, 0] _ c p (h.rep.clrBot false) h.wrt hg
  refine ⟨{ t with b := b', mark := false, srec := t.b.pos + t.b.posBuff, lrecl := 0, orecl := 0, parity := false,
                   func := .write }, ?_, ⟨r, h.fmt, h.ring, a3⟩, a1, a2, a5 (by simp), h.rep.pat.symm, rfl, rfl, rfl, rfl⟩
  unfold writeStart
  rw [if_neg (by simp [h.rep.opened]), if_neg (by simp [h.ring])]
  simp only
  rw [if_pos (by rw [h.fmt]; exact hf), e]
  simp

theorem putFrames_te : ∀ (bs : List Nat) (t : Tape) (f : Fmt) (c : List Nat) (p : Nat), Drive t f true c p → IsTE f →
    ¬ CleanEnd t.b → t.lrecl + bs.length < 4294967296 →
    ∃ t', putFrames bs t = .ok (List.replicate bs.length .ok, t') ∧ Drive t' f true (over c p bs) (p + bs.length) ∧
      t'.b.eot = t.b.eot ∧ t'.b.bot = t.b.bot ∧ ¬ CleanEnd t'.b ∧ (t.b.dirty = true → t'.b.dirty = true) ∧
      t'.srec = t.srec ∧ t'.lrecl = t.lrecl + bs.length ∧ t'.func = t.func ∧ t'.mark = t.mark ∧
      t'.parity = t.parity := by
  intro bs
  induction bs with
  | nil =>
    intro t f c p h _ hg _
    exact ⟨t, rfl, by simpa [over_nil] using h, rfl, rfl, hg, id, rfl, rfl, rfl, rfl, rfl⟩
  | cons x l ih =>
    intro t f c p h hf hg hn
    simp only [List.length_cons] at hn
    obtain ⟨b1, e1, r1, a1, a2, a3, a4⟩ := writeByte_ok h.rep h.wrt hg x
    have hne : ¬ (t.fmt = .p7b ∧ t.lrecl = 0) := by
      rw [h.fmt]; rintro ⟨h1, _⟩; rcases hf with h2 | h2 <;> rw [h2] at h1 <;> cases h1
    have e2 : writeFrame t x = .ok (.ok, { t with b := b1, lrecl := t.lrecl + 1, posFrame := t.posFrame + step t }) := by
      unfold writeFrame
      rw [if_neg (by simp [h.rep.opened]), if_neg hne]
      simp only [e1, bind_ok]
      rw [Nat.mod_eq_of_lt (by omega)]
    obtain ⟨t', e3, d, q1, q2, q3, q4, q5, q6, q7, q8, q9⟩ := ih
      { t with b := b1, lrecl := t.lrecl + 1, posFrame := t.posFrame + step t } f _ (p + 1)
      ⟨r1, h.fmt, h.ring, a3.trans h.wrt⟩ hf (by simp [CleanEnd, a4]) (by show t.lrecl + 1 + l.length < _; omega)
    refine ⟨t', ?_, ?_, q1.trans a1, q2.trans a2, q3, fun _ => q4 a4, q5, ?_, q7, q8, q9⟩
    · simp only [putFrames, e2, bind_ok, e3, List.length_cons, List.replicate_succ]
    · have := over_over c p [x] l h.rep.pos_le
      simp only [List.length_singleton, List.singleton_append] at this
      rw [this] at d
      simpa [Nat.add_assoc, Nat.add_comm 1] using d
    · rw [q6]; simp only [List.length_cons]; omega

theorem finishWrite_te {t f c p} (fuel junk q : Nat) (x : List Nat) (hq : q ≤ c.length)
    (h : Drive t f true (over c q ([0, 0, 0, 0] ++ x)) p) (hf : IsTE f) (hp : p = q + 4 + x.length)
    (hd : t.b.dirty = true) (hs : t.srec = q) (hl : t.lrecl = x.length)
    (hfn : t.func = .write) (hm : t.mark = false) (hpar : t.parity = false) :
    ∃ t', finishRec fuel junk t = .ok (.ok, t') ∧
      Drive t' f true (over c q (le32 x.length ++ x ++ padOf f x.length ++ le32 x.length))
        (q + (le32 x.length ++ x ++ padOf f x.length ++ le32 x.length).length) ∧
      t'.b.eot = t.b.eot ∧ t'.b.bot = t.b.bot ∧ ¬ CleanEnd t'.b := by
  -- the padding byte
  obtain ⟨b1, e1, r1, a1, a2, a3, a4⟩ : ∃ b1,
      (if t.fmt = .tap ∧ t.lrecl % 2 = 1 then writeByte t.b 0 else .ok (.ok, t.b)) = .ok (.ok, b1) ∧
      Rep b1 (over c q ([0, 0, 0, 0] ++ x ++ padOf f x.length)) (p + (padOf f x.length).length) ∧
      b1.eot = t.b.eot ∧ b1.bot = t.b.bot ∧ b1.writable = true ∧ b1.dirty = true := by
    by_cases hpd : f = .tap ∧ x.length % 2 = 1
    · have hpd' : t.fmt = .tap ∧ t.lrecl % 2 = 1 := by rw [h.fmt, hl]; exact hpd
      obtain ⟨b1, e1, r1, a1, a2, a3, a4⟩ := writeByte_ok h.rep h.wrt (by simp [CleanEnd, hd]) 0
      refine ⟨b1, by rw [if_pos hpd', e1], ?_, a1, a2, a3.trans h.wrt, a4⟩
      have ho := over_over c q ([0, 0, 0, 0] ++ x) [0] hq
      simp only [List.length_append, List.length_cons, List.length_nil] at ho
      rw [show q + (0 + 1 + 1 + 1 + 1 + x.length) = p by omega] at ho
      simp only [padOf, hpd, and_self, if_true, List.length_singleton]
      rw [ho] at r1
      exact r1
    · have hpd' : ¬ (t.fmt = .tap ∧ t.lrecl % 2 = 1) := by rw [h.fmt, hl]; exact hpd
      refine ⟨t.b, by rw [if_neg hpd'], ?_, rfl, rfl, h.wrt, hd⟩
      simpa [padOf, hpd] using h.rep
  -- the leading length
  obtain ⟨b2, e2, r2, c1, c2, c3, c4⟩ := prevLoop_ok (bytes4 t.lrecl) { t with b := b1 } _ _ r1 a3 a4
    (by show t.srec + 4 ≤ _; omega)
  -- the trailing length
  obtain ⟨b3, e3, r3, d1, d2, d3, d4, _⟩ := wrLoop_ok (bytes4 t.lrecl) b2 _ _ r2 c3 (by simp [CleanEnd, c4])
  refine ⟨{ t with b := b3, srec := t.srec + 4, func := .none }, ?_, ?_, d1.trans (c1.trans a1), d2.trans (c2.trans a2), d4⟩
  · unfold finishRec
    rw [if_neg (by simp [h.rep.opened]), if_pos (by rw [h.fmt]; exact hf), if_neg (by simp [hm]), hfn]
    simp only
    rw [e1, bind_ok]
    simp only [hfn] at e2 ⊢
    rw [e2, bind_ok]
    simp only [ne_eq, not_true_eq_false, if_false]
    rw [e3, bind_ok]
    simp [finishEnd, hpar, bytes4]
  · refine ⟨?_, h.fmt, h.ring, d3⟩
    have hbl : (bytes4 t.lrecl).length = 4 := rfl
    have ho : over (over c q ([0, 0, 0, 0] ++ x ++ padOf f x.length)) q (bytes4 t.lrecl) =
        over c q (bytes4 t.lrecl ++ (x ++ padOf f x.length)) := by
      rw [List.append_assoc]
      exact over_prev c q [0, 0, 0, 0] (bytes4 t.lrecl) (x ++ padOf f x.length) hq rfl
    have hs' : ({ t with b := b1 } : Tape).srec = q := hs
    rw [hs', ho] at r3
    have ho2 := over_over c q (bytes4 t.lrecl ++ (x ++ padOf f x.length)) (bytes4 t.lrecl) hq
    rw [show q + (bytes4 t.lrecl ++ (x ++ padOf f x.length)).length = p + (padOf f x.length).length by
      simp only [List.length_append, hbl]; omega] at ho2
    rw [ho2] at r3
    rw [le32_eq, ← hl]
    have e4 : bytes4 t.lrecl ++ (x ++ padOf f t.lrecl) ++ bytes4 t.lrecl =
        bytes4 t.lrecl ++ x ++ padOf f t.lrecl ++ bytes4 t.lrecl := by simp
    rw [hl] at e4 r3 ⊢
    rw [← e4]
    rw [show q + (bytes4 x.length ++ (x ++ padOf f x.length) ++ bytes4 x.length).length =
      p + (padOf f x.length).length + (bytes4 x.length).length by
        simp only [List.length_append, show (bytes4 x.length).length = 4 from rfl]; omega]
    exact r3

theorem writeData_te {t f c p} (fuel junk : Nat) (bs : List Nat) (h : Drive t f true c p) (hf : IsTE f)
    (hg : ¬ CleanEnd t.b) (hn : bs.length < 4294967295) :
    ∃ t', opStep fuel junk (.write (.data bs)) t = .ok (wroteAll (.data bs), t') ∧
      Drive t' f true (over c p (image f (.data bs))) (p + (image f (.data bs)).length) ∧
      t'.b.eot = t.b.eot ∧ t'.b.bot = false ∧ ¬ CleanEnd t'.b := by
  obtain ⟨t1, e1, d1, a1, a2, a3, a4, a5, a6, a7, a8⟩ := writeStart_te h hf hg
  obtain ⟨t2, e2, d2, b1, b2, b3, b4, b5, b6, b7, b8, b9⟩ := putFrames_te bs t1 f _ _ d1 hf (by simp [CleanEnd, a3])
    (by omega)
  have ho := over_over c p [0, 0, 0, 0] bs h.rep.pos_le
  rw [show p + [0, 0, 0, 0].length = p + 4 from rfl] at ho
  rw [ho] at d2
  obtain ⟨t3, e3, d3, c1, c2, c3⟩ := finishWrite_te fuel junk p bs h.rep.pos_le d2 hf rfl (b4 a3) (b5.trans a4)
    (by rw [b6, a5]; omega) (b7.trans a6) (b8.trans a7) (b9.trans a8)
  refine ⟨t3, ?_, by rw [image_te f hf]; exact d3, c1.trans (b1.trans a1), c2.trans (b2.trans a2), c3⟩
  simp only [opStep, e1, bind_ok, e2, e3, wroteAll, List.replicate_succ']
  rw [← List.replicate_succ', List.replicate_succ, List.cons_append, ← List.replicate_succ']

/-! ## Reading forward -/

theorem readForw_te {t f ring c pre post} (l : List Nat) (hl : l.length = 4) (h : Drive t f ring c pre.length)
    (hf : IsTE f) (hc : c = pre ++ l ++ post) (he : t.b.eot = false) (hn : num4 l ≠ 0xffffffff) :
    ∃ t', readForw t = .ok (if num4 l = 0 then .mark else .ok, t') ∧ Drive t' f ring c (pre.length + 4) ∧
      t'.b.eot = false ∧ t'.b.bot = false ∧ t'.mark = decide (num4 l = 0) ∧ t'.lrecl = 0 ∧
      (num4 l ≠ 0 → t'.orecl = num4 l) ∧ t'.func = .read ∧ t'.parity = false := by
  obtain ⟨b', e, r, a1, a2, a3⟩ := rdLoop_ok post l _ c pre (h.rep.clrBot false) hc
  rw [hl] at e r
  by_cases h0 : num4 l = 0
  · refine ⟨{ t with b := b', mark := true, parity := false, func := .read, srec := t.b.pos + t.b.posBuff, lrecl := 0,
                     posFrame := t.posFrame + 1200 }, ?_, ⟨r, h.fmt, h.ring, a3.trans h.wrt⟩, a1.trans he, a2,
                by simp [h0], rfl, by simp [h0], rfl, rfl⟩
    unfold readForw
    rw [if_neg (by simp [h.rep.opened])]
    simp only
    rw [if_neg (by simp [he]), if_pos (by rw [h.fmt]; exact hf), e]
    simp [h0]
  · refine ⟨{ t with b := b', mark := false, parity := false, func := .read, srec := t.b.pos + t.b.posBuff, lrecl := 0,
                     orecl := num4 l }, ?_, ⟨r, h.fmt, h.ring, a3.trans h.wrt⟩, a1.trans he, a2, by simp [h0],
                rfl, fun _ => rfl, rfl, rfl⟩
    unfold readForw
    rw [if_neg (by simp [h.rep.opened])]
    simp only
    rw [if_neg (by simp [he]), if_pos (by rw [h.fmt]; exact hf), e]
    simp [h0, hn]

/-- One frame inside a record. -/
theorem readFrame_te {t f ring c p} (d : Nat) (h : Drive t f ring c p) (hf : IsTE f) (hm : t.mark = false)
    (hfn : t.func = .read) (hlt : t.lrecl < t.orecl) (hp : p < c.length) :
    ∃ b' pf, readFrame t d = .ok (.ok, c[p], { t with b := b', lrecl := t.lrecl + 1, posFrame := pf }) ∧
      Drive { t with b := b', lrecl := t.lrecl + 1, posFrame := pf } f ring c (p + 1) ∧ b'.eot = t.b.eot ∧
      b'.bot = t.b.bot := by
  obtain ⟨b1, e1, r1, a1, a2, a3, _⟩ := readByte_ok h.rep d hp
  refine ⟨b1, t.posFrame + step t, ?_, ⟨r1, h.fmt, h.ring, a3.trans h.wrt⟩, a1, a2⟩
  unfold readFrame
  rw [if_neg (by simp [h.rep.opened]), if_neg (by simp [hm]), if_pos (by rw [h.fmt]; exact hf), if_pos hfn,
    if_neg (by omega), e1]
  rfl

theorem readFrame_eob_te {t f ring c p} (d : Nat) (h : Drive t f ring c p) (hf : IsTE f) (hm : t.mark = false)
    (hfn : t.func = .read) (hge : t.lrecl ≥ t.orecl) : readFrame t d = .ok (.eob, d, t) := by
  unfold readFrame
  rw [if_neg (by simp [h.rep.opened]), if_neg (by simp [hm]), if_pos (by rw [h.fmt]; exact hf), if_pos hfn,
    if_pos hge]

theorem framesOf_zero (bs : List Nat) : framesOf bs 0 = [] := by simp [framesOf]
theorem framesOf_nil (k : Nat) : framesOf [] (k + 1) = (.eob, 0) :: framesOf [] k := by
  simp [framesOf, List.replicate_succ]
theorem framesOf_cons (x : Nat) (l : List Nat) (k : Nat) : framesOf (x :: l) (k + 1) = (.ok, x) :: framesOf l k := by
  simp [framesOf]

/-- Asking for `k` frames of the rest `bs` of a record. -/
theorem frames_te (junk : Nat) (post : List Nat) : ∀ (k : Nat) (bs : List Nat) (t : Tape) (f : Fmt) (ring : Bool)
    (c pre : List Nat), Drive t f ring c pre.length → c = pre ++ bs ++ post → IsTE f → t.mark = false →
    t.func = .read → t.lrecl + bs.length = t.orecl →
    ∃ b' pf, frames junk k t = .ok (framesOf bs k, { t with b := b', lrecl := t.lrecl + min k bs.length, posFrame := pf }) ∧
      Drive { t with b := b', lrecl := t.lrecl + min k bs.length, posFrame := pf } f ring c (pre.length + min k bs.length) ∧
      b'.eot = t.b.eot ∧ b'.bot = t.b.bot := by
  intro k
  induction k with
  | zero =>
    intro bs t f ring c pre h _ _ _ _ _
    exact ⟨t.b, t.posFrame, by simp [frames, framesOf_zero], by simpa using h, rfl, rfl⟩
  | succ k ih =>
    intro bs t f ring c pre h hc hf hm hfn hl
    cases bs with
    | nil =>
      have e0 := readFrame_eob_te junk h hf hm hfn (by simp at hl; omega)
      obtain ⟨b', pf, e, d, a1, a2⟩ := ih [] t f ring c pre h hc hf hm hfn hl
      refine ⟨b', pf, ?_, by simpa using d, a1, a2⟩
      simp only [frames, e0, bind_ok, e, framesOf_nil]
      simp
    | cons x l =>
      simp only [List.length_cons] at hl
      have hp : pre.length < c.length := by rw [hc]; simp
      obtain ⟨b1, pf1, e1, d1, a1, a2⟩ := readFrame_te junk h hf hm hfn (by omega) hp
      have hx : c[pre.length] = x := by simp [hc]
      obtain ⟨b2, pf2, e2, d2, q1, q2⟩ := ih l { t with b := b1, lrecl := t.lrecl + 1, posFrame := pf1 } f ring c
        (pre ++ [x]) (by simpa using d1) (by simp [hc]) hf hm hfn (by show t.lrecl + 1 + l.length = t.orecl; omega)
      have hmin : min (k + 1) (x :: l).length = 1 + min k l.length := by simp only [List.length_cons]; omega
      refine ⟨b2, pf2, ?_, ?_, q1.trans a1, q2.trans a2⟩
      · simp only [frames, e1, bind_ok, e2, hx, framesOf_cons, hmin]
        simp [Nat.add_assoc]
      · rw [hmin]
        simp only [List.length_append, List.length_singleton, Nat.add_assoc] at d2
        exact d2

theorem skipLoop_te (post : List Nat) : ∀ (bs : List Nat) (t : Tape) (f : Fmt) (ring : Bool) (c pre : List Nat)
    (junk : Nat), Drive t f ring c pre.length → c = pre ++ bs ++ post → IsTE f → t.mark = false →
    t.func = .read → t.lrecl + bs.length = t.orecl →
    ∃ b' pf, skipLoop bs.length t junk = .ok { t with b := b', lrecl := t.lrecl + bs.length, posFrame := pf } ∧
      Drive { t with b := b', lrecl := t.lrecl + bs.length, posFrame := pf } f ring c (pre.length + bs.length) ∧
      b'.eot = t.b.eot ∧ b'.bot = t.b.bot := by
  intro bs
  induction bs with
  | nil =>
    intro t f ring c pre junk h _ _ _ _ _
    exact ⟨t.b, t.posFrame, by simp [skipLoop], by simpa using h, rfl, rfl⟩
  | cons x l ih =>
    intro t f ring c pre junk h hc hf hm hfn hl
    simp only [List.length_cons] at hl
    have hp : pre.length < c.length := by rw [hc]; simp
    obtain ⟨b1, pf1, e1, d1, a1, a2⟩ := readFrame_te junk h hf hm hfn (by omega) hp
    have hx : c[pre.length] = x := by simp [hc]
    obtain ⟨b2, pf2, e2, d2, q1, q2⟩ := ih { t with b := b1, lrecl := t.lrecl + 1, posFrame := pf1 } f ring c
      (pre ++ [x]) c[pre.length] (by simpa using d1) (by simp [hc]) hf hm hfn (by show t.lrecl + 1 + l.length = t.orecl; omega)
    refine ⟨b2, pf2, ?_, ?_, q1.trans a1, q2.trans a2⟩
    · simp only [List.length_cons, skipLoop, e1, bind_ok, e2]
      simp [Nat.add_assoc, Nat.add_comm 1]
    · simp only [List.length_append, List.length_singleton, Nat.add_assoc, Nat.add_comm 1] at d2
      exact d2

theorem finishRead_te {t f ring c pre post} (fuel junk n : Nat) (bs : List Nat) (tail : List Nat)
    (h : Drive t f ring c pre.length) (hc : c = pre ++ (bs ++ padOf f n ++ tail) ++ post) (htl : tail.length = 4)
    (hf : IsTE f) (hm : t.mark = false)
    (hfn : t.func = .read) (hl : t.lrecl + bs.length = t.orecl) (ho : t.orecl = n) (hpar : t.parity = false) :
    ∃ t', finishRec fuel junk t = .ok (.ok, t') ∧ Drive t' f ring c (pre.length + (bs ++ padOf f n ++ tail).length) ∧
      t'.b.eot = t.b.eot ∧ t'.b.bot = t.b.bot := by
  obtain ⟨b1, pf1, e1, d1, a1, a2⟩ := skipLoop_te (padOf f n ++ tail ++ post) bs t f ring c pre junk h
    (by simp [hc]) hf hm hfn hl
  obtain ⟨b2, s2, x2, e2, r2, c1, c2, c3⟩ : ∃ b2 s2 x2,
      (if t.fmt = .tap ∧ t.orecl % 2 = 1 then readByte b1 0 else .ok (.ok, 0, b1)) = .ok (s2, x2, b2) ∧
      Rep b2 c (pre ++ bs ++ padOf f n).length ∧ b2.eot = b1.eot ∧ b2.bot = b1.bot ∧ b2.writable = b1.writable := by
    by_cases hpd : f = .tap ∧ n % 2 = 1
    · have hpd' : t.fmt = .tap ∧ t.orecl % 2 = 1 := by rw [h.fmt, ho]; exact hpd
      obtain ⟨b2, e2, r2, c1, c2, c3, _⟩ := readByte_ok d1.rep 0 (by rw [hc]; simp [padOf, hpd])
      exact ⟨b2, _, _, by rw [if_pos hpd', e2], by simpa [padOf, hpd, Nat.add_assoc] using r2, c1, c2, c3⟩
    · have hpd' : ¬ (t.fmt = .tap ∧ t.orecl % 2 = 1) := by rw [h.fmt, ho]; exact hpd
      exact ⟨b1, _, _, by rw [if_neg hpd'], by simpa [padOf, hpd] using d1.rep, rfl, rfl, rfl⟩
  obtain ⟨b3, e3, r3, g1, g2, g3⟩ := rdLoop_ok post tail b2 c (pre ++ bs ++ padOf f n) r2 (by simp [hc])
  rw [htl] at e3
  refine ⟨{ t with b := b3, lrecl := num4 tail, posFrame := pf1, func := .none }, ?_, ⟨?_, h.fmt, h.ring, ?_⟩,
    g1.trans (c1.trans a1), g2.trans (c2.trans a2)⟩
  · unfold finishRec
    rw [if_neg (by simp [h.rep.opened]), if_pos (by rw [h.fmt]; exact hf), if_neg (by simp [hm]), hfn]
    simp only
    rw [show t.orecl - t.lrecl = bs.length by omega, e1, bind_ok]
    simp only
    rw [e2, bind_ok]
    simp only
    rw [e3, bind_ok]
    simp [finishEnd, hpar]
  · simpa [Nat.add_assoc] using r3
  · exact g3.trans (c3.trans d1.wrt)

theorem fwd_data_te {t f ring c pre post} (fuel junk k : Nat) (fin : Bool) (bs : List Nat)
    (h : Drive t f ring c pre.length) (hf : IsTE f) (hc : c = pre ++ image f (.data bs) ++ post)
    (hne : bs ≠ []) (hn : bs.length < 4294967295) (he : t.b.eot = false) :
    ∃ t', opStep fuel junk (.fwd k fin) t = .ok (readItem k fin false (.data bs), t') ∧
      Drive t' f ring c (pre.length + (image f (.data bs)).length) ∧ t'.b.eot = false ∧ t'.b.bot = false := by
  have hnum := num4_le32 bs.length (by omega)
  have h0 : bs.length ≠ 0 := by simpa using hne
  rw [image_te f hf] at hc ⊢
  obtain ⟨t1, e1, d1, a1, a2, a3, a4, a5, a6, a7⟩ := readForw_te (le32 bs.length) (le32_length _) h hf
    (post := bs ++ padOf f bs.length ++ le32 bs.length ++ post) (by simp [hc]) he (by rw [hnum]; omega)
  rw [hnum] at e1 a3 a5
  rw [if_neg h0] at e1
  have d1' : Drive t1 f ring c (pre ++ le32 bs.length).length := by simpa [le32_length] using d1
  obtain ⟨b2, pf2, e2, d2, b1', b2'⟩ := frames_te junk (padOf f bs.length ++ le32 bs.length ++ post) k bs t1 f ring c
    (pre ++ le32 bs.length) d1' (by simp [hc]) hf (by simp [a3, h0]) a6 (by rw [a4, a5 h0]; omega)
  obtain ⟨t3, e3, d3, c1, c2⟩ := finishRead_te (t := { t1 with b := b2, lrecl := t1.lrecl + min k bs.length, posFrame := pf2 })
    (pre := pre ++ le32 bs.length ++ bs.take k) (post := post) fuel junk bs.length (bs.drop k) (le32 bs.length)
    (by simpa [le32_length, Nat.add_assoc] using d2)
    (by rw [hc]; simp [← List.append_assoc (List.take k bs) (List.drop k bs)]) (le32_length _) hf (by simp [a3, h0]) a6
    (by show t1.lrecl + min k bs.length + (bs.drop k).length = t1.orecl; rw [a4, a5 h0, List.length_drop]; omega)
    (a5 h0) a7
  refine ⟨t3, ?_, ?_, c1.trans (b1'.trans a1), c2.trans (b2'.trans a2)⟩
  · simp only [opStep, readOp, e1, bind_ok, if_true, e2, e3]
    rfl
  · have : (pre ++ le32 bs.length ++ bs.take k).length + (bs.drop k ++ padOf f bs.length ++ le32 bs.length).length =
        pre.length + (le32 bs.length ++ bs ++ padOf f bs.length ++ le32 bs.length).length := by
      simp only [List.length_append, List.length_take, List.length_drop, le32_length]; omega
    rw [← this]; exact d3

theorem frames_mark (junk : Nat) : ∀ (k : Nat) (t : Tape), t.b.opened = true → t.mark = true →
    frames junk k t = .ok (List.replicate k (.mark, 0), t) := by
  intro k
  induction k with
  | zero => intro t _ _; rfl
  | succ k ih =>
    intro t ho hm
    have : readFrame t junk = .ok (.mark, junk, t) := by
      unfold readFrame; rw [if_neg (by simp [ho]), if_pos hm]
    simp only [frames, this, bind_ok, ih t ho hm, List.replicate_succ]
    simp

theorem finish_mark_te {t f ring c p} (fuel junk : Nat) (h : Drive t f ring c p) (hf : IsTE f) (hm : t.mark = true) :
    finishRec fuel junk t = .ok (.ok, { t with func := .none, mark := false }) := by
  unfold finishRec
  rw [if_neg (by simp [h.rep.opened]), if_pos (by rw [h.fmt]; exact hf), if_pos hm]

theorem markOp_te {t t1 f ring c p} (start : Tape → Res (St × Tape)) (fuel junk k : Nat) (fin rev : Bool)
    (e1 : start t = .ok (.mark, t1)) (d1 : Drive t1 f ring c p) (hf : IsTE f) (hm : t1.mark = true) :
    ∃ t', readOp start fuel junk k fin t = .ok (readItem k fin rev .mark, t') ∧ Drive t' f ring c p ∧ t'.b = t1.b := by
  cases fin with
  | true =>
    refine ⟨{ t1 with func := .none, mark := false }, ?_, ⟨d1.rep, d1.fmt, d1.ring, d1.wrt⟩, rfl⟩
    simp only [readOp, e1, bind_ok, frames_mark junk k t1 d1.rep.opened hm, finish_mark_te fuel junk d1 hf hm]
    simp [readItem]
  | false =>
    refine ⟨t1, ?_, d1, rfl⟩
    simp only [readOp, e1, bind_ok, frames_mark junk k t1 d1.rep.opened hm]
    simp [readItem]

theorem fwd_mark_te {t f ring c pre post} (fuel junk k : Nat) (fin : Bool) (h : Drive t f ring c pre.length)
    (hf : IsTE f) (hc : c = pre ++ [0, 0, 0, 0] ++ post) (he : t.b.eot = false) :
    ∃ t', opStep fuel junk (.fwd k fin) t = .ok (readItem k fin false .mark, t') ∧
      Drive t' f ring c (pre.length + 4) ∧ t'.b.eot = false ∧ t'.b.bot = false := by
  obtain ⟨t1, e1, d1, a1, a2, a3, _⟩ := readForw_te [0, 0, 0, 0] rfl h hf hc he (by simp [num4])
  rw [if_pos (by simp [num4])] at e1
  obtain ⟨t2, e2, d2, eb⟩ := markOp_te readForw fuel junk k fin false e1 d1 hf (by simp [a3, num4])
  exact ⟨t2, e2, d2, by rw [eb]; exact a1, by rw [eb]; exact a2⟩

theorem fwd_end_te {t f ring c} (fuel junk k : Nat) (fin : Bool) (h : Drive t f ring c c.length) (hf : IsTE f)
    (hg : t.b.eot = true → ¬ CleanEnd t.b) :
    ∃ t', opStep fuel junk (.fwd k fin) t = .ok (.read .eot [] none, t') ∧
      Drive t' f ring c c.length ∧ t'.b.eot = true ∧ t'.b.bot = false ∧ ¬ CleanEnd t'.b := by
  by_cases he : t.b.eot = true
  · refine ⟨{ t with b := { t.b with bot := false }, mark := false, parity := false }, ?_,
      ⟨h.rep.clrBot false, h.fmt, h.ring, h.wrt⟩, he, rfl, hg he⟩
    have : readForw t = .ok (.eot, { t with b := { t.b with bot := false }, mark := false, parity := false }) := by
      unfold readForw
      rw [if_neg (by simp [h.rep.opened])]
      simp only
      rw [if_pos he]
    simp [opStep, readOp, this]
  · obtain ⟨b', e, r, a1, a2, a3, a4⟩ := rdLoop_end _ c 3 (h.rep.clrBot false)
    have : readForw t = .ok (.eot, { t with b := b', mark := false, parity := false, func := .read, srec := t.b.pos + t.b.posBuff }) := by
      unfold readForw
      rw [if_neg (by simp [h.rep.opened])]
      simp only
      rw [if_neg he, if_pos (by rw [h.fmt]; exact hf), e]
      simp
    refine ⟨{ t with b := b', mark := false, parity := false, func := .read, srec := t.b.pos + t.b.posBuff }, ?_,
      ⟨r, h.fmt, h.ring, a3.trans h.wrt⟩, a1, a2, ?_⟩
    · simp [opStep, readOp, this]
    · rintro ⟨h1, _⟩
      have := W_pos
      rw [show b'.posBuff = 0 from a4] at h1
      omega

/-! ## Reading backward -/

theorem readBack_te {t f ring c pre post} (n : Nat) (x : List Nat) (h : Drive t f ring c (pre ++ x ++ padOf f n ++ le32 n).length)
    (hx : x.length = n) (hf : IsTE f) (hc : c = pre ++ x ++ padOf f n ++ le32 n ++ post) (hb : t.b.bot = false)
    (hn : n < 4294967295) :
    ∃ t', readBack t = .ok (if n = 0 then .mark else .ok, t') ∧ Drive t' f ring c (pre ++ x).length ∧
      t'.b.eot = false ∧ t'.b.bot = false ∧ t'.mark = decide (n = 0) ∧ t'.lrecl = n ∧ t'.func = .rdback ∧
      t'.parity = false ∧ t'.b.posBuff < W := by
  have hnum := num4_le32 n (by omega)
  obtain ⟨b1, e1, r1, a1, a2, a3, a4⟩ := bkLoop_ok (pre ++ x ++ padOf f n) 4 (le32 n) { t.b with eot := false } c post []
    (le32_length _) (by have := h.rep.clrEot false; rw [List.length_append] at this; exact this) (by simp [hc]) hb
  rw [le32_length, List.append_nil] at e1
  have ae : b1.eot = false := by rcases a1 with q | q <;> exact q
  obtain ⟨b2, s2, x2, e2, r2, c1, c2, c3, c4⟩ : ∃ b2 s2 x2,
      (if t.fmt = .tap ∧ num4 (le32 n) % 2 = 1 then readbkByte b1 0 else .ok (.ok, 0, b1)) = .ok (s2, x2, b2) ∧
      Rep b2 c (pre ++ x).length ∧ b2.eot = false ∧ b2.bot = false ∧ b2.writable = b1.writable ∧ b2.posBuff < W := by
    rw [hnum]
    by_cases hpd : f = .tap ∧ n % 2 = 1
    · have hpd' : t.fmt = .tap ∧ n % 2 = 1 := by rw [h.fmt]; exact hpd
      obtain ⟨b2, e2, r2, c1, c2, c3, _, c5⟩ := readbkByte_ok r1 0 a2 (by simp [padOf, hpd]; omega)
      exact ⟨b2, _, _, by rw [if_pos hpd', e2], by simpa [padOf, hpd, ← Nat.add_assoc] using r2,
        by rcases c1 with q | q <;> simp [q, ae], c2, c3, c5⟩
    · have hpd' : ¬ (t.fmt = .tap ∧ n % 2 = 1) := by rw [h.fmt]; exact hpd
      exact ⟨b1, _, _, by rw [if_neg hpd'], by simpa [padOf, hpd] using r1, ae, a2, rfl, a4 (by simp)⟩
  by_cases h0 : n = 0
  · refine ⟨{ t with b := b2, mark := true, parity := false, func := .rdback, srec := t.b.pos + t.b.posBuff, lrecl := 0,
                     posFrame := t.posFrame - 1200 }, ?_, ⟨r2, h.fmt, h.ring, c3.trans (a3.trans h.wrt)⟩, c1, c2,
                by simp [h0], h0.symm, rfl, rfl, c4⟩
    unfold readBack
    rw [if_neg (by simp [h.rep.opened])]
    simp only
    rw [if_neg (by simp [hb]), if_pos (by rw [h.fmt]; exact hf), e1, bind_ok]
    simp only
    rw [if_neg (by simp), if_neg (by rw [hnum]; omega), e2, bind_ok]
    simp only
    rw [hnum, if_pos h0, if_pos h0]
  · refine ⟨{ t with b := b2, mark := false, parity := false, func := .rdback, srec := t.b.pos + t.b.posBuff, lrecl := n,
                     orecl := n }, ?_, ⟨r2, h.fmt, h.ring, c3.trans (a3.trans h.wrt)⟩, c1, c2, by simp [h0],
                rfl, rfl, rfl, c4⟩
    unfold readBack
    rw [if_neg (by simp [h.rep.opened])]
    simp only
    rw [if_neg (by simp [hb]), if_pos (by rw [h.fmt]; exact hf), e1, bind_ok]
    simp only
    rw [if_neg (by simp), if_neg (by rw [hnum]; omega), e2, bind_ok]
    simp only
    rw [hnum, if_neg h0, if_neg h0]

theorem readFrame_bk_te {t f ring c p} (d : Nat) (h : Drive t f ring c p) (hf : IsTE f) (hm : t.mark = false)
    (hfn : t.func = .rdback) (hlt : 0 < t.lrecl) (hp : 0 < p) (hb : t.b.bot = false) :
    ∃ b' pf, readFrame t d = .ok (.ok, c[p - 1]'(by have := h.rep.pos_le; omega), { t with b := b', lrecl := t.lrecl - 1, posFrame := pf }) ∧
      Drive { t with b := b', lrecl := t.lrecl - 1, posFrame := pf } f ring c (p - 1) ∧
      (b'.eot = t.b.eot ∨ b'.eot = false) ∧ b'.bot = false := by
  obtain ⟨b1, e1, r1, a1, a2, a3, _⟩ := readbkByte_ok h.rep d hb hp
  refine ⟨b1, t.posFrame - step t, ?_, ⟨r1, h.fmt, h.ring, a3.trans h.wrt⟩, a1, a2⟩
  unfold readFrame
  rw [if_neg (by simp [h.rep.opened]), if_neg (by simp [hm]), if_pos (by rw [h.fmt]; exact hf),
    if_neg (by simp [hfn]), if_pos hfn, if_neg (by omega), e1]
  rfl

theorem readFrame_bk_eob_te {t f ring c p} (d : Nat) (h : Drive t f ring c p) (hf : IsTE f) (hm : t.mark = false)
    (hfn : t.func = .rdback) (h0 : t.lrecl = 0) : readFrame t d = .ok (.eob, d, t) := by
  unfold readFrame
  rw [if_neg (by simp [h.rep.opened]), if_neg (by simp [hm]), if_pos (by rw [h.fmt]; exact hf),
    if_neg (by simp [hfn]), if_pos hfn, if_pos h0]

/-- Asking backward for `k` frames of the rest of a record, given reversed as `rs`. -/
theorem frames_bk_te (junk : Nat) (pre : List Nat) : ∀ (k : Nat) (rs : List Nat) (t : Tape) (f : Fmt) (ring : Bool)
    (c post : List Nat), Drive t f ring c (pre.length + rs.length) → c = pre ++ rs.reverse ++ post → IsTE f →
    t.mark = false → t.func = .rdback → t.lrecl = rs.length → t.b.bot = false → t.b.eot = false →
    ∃ b' pf, frames junk k t = .ok (framesOf rs k, { t with b := b', lrecl := (rs.drop k).length, posFrame := pf }) ∧
      Drive { t with b := b', lrecl := (rs.drop k).length, posFrame := pf } f ring c (pre.length + (rs.drop k).length) ∧
      b'.eot = false ∧ b'.bot = false := by
  intro k
  induction k with
  | zero =>
    intro rs t f ring c post h _ _ _ _ hl hb he
    exact ⟨t.b, t.posFrame, by simp [frames, framesOf_zero, ← hl], by simpa [← hl] using h, he, hb⟩
  | succ k ih =>
    intro rs t f ring c post h hc hf hm hfn hl hb he
    cases rs with
    | nil =>
      have e0 := readFrame_bk_eob_te junk h hf hm hfn (by simpa using hl)
      obtain ⟨b', pf, e, d, a1, a2⟩ := ih [] t f ring c post h hc hf hm hfn hl hb he
      refine ⟨b', pf, ?_, by simpa using d, a1, a2⟩
      simp only [frames, e0, bind_ok, e, framesOf_nil]
      simp
    | cons x l =>
      simp only [List.length_cons] at hl
      obtain ⟨b1, pf1, e1, d1, a1, a2⟩ := readFrame_bk_te junk h hf hm hfn (by omega) (by simp; omega) hb
      have hx : ∀ hq, c[pre.length + (x :: l).length - 1]'hq = x := by
        intro hq; simp [hc]
      obtain ⟨b2, pf2, e2, d2, q1, q2⟩ := ih l { t with b := b1, lrecl := t.lrecl - 1, posFrame := pf1 } f ring c
        (x :: post) (by simpa [← Nat.add_assoc] using d1) (by simp [hc]) hf hm hfn
        (by show t.lrecl - 1 = l.length; omega) a2 (by rcases a1 with q | q <;> simp [q, he])
      refine ⟨b2, pf2, ?_, d2, q1, q2⟩
      simp only [frames, e1, bind_ok, e2, hx, framesOf_cons, List.drop_succ_cons]
      simp

theorem skipLoop_bk_te (pre : List Nat) : ∀ (rs : List Nat) (t : Tape) (f : Fmt) (ring : Bool)
    (c post : List Nat) (junk : Nat), Drive t f ring c (pre.length + rs.length) → c = pre ++ rs.reverse ++ post → IsTE f →
    t.mark = false → t.func = .rdback → t.lrecl = rs.length → t.b.bot = false → t.b.eot = false →
    ∃ b' pf, skipLoop rs.length t junk = .ok { t with b := b', lrecl := 0, posFrame := pf } ∧
      Drive { t with b := b', lrecl := 0, posFrame := pf } f ring c pre.length ∧ b'.eot = false ∧ b'.bot = false := by
  intro rs
  induction rs with
  | nil =>
    intro t f ring c post junk h _ _ _ _ hl hb he
    have hl : t.lrecl = 0 := by simpa using hl
    have ht : { t with lrecl := 0 } = t := by rw [← hl]
    exact ⟨t.b, t.posFrame, by simp only [List.length_nil, skipLoop]; exact congrArg Res.ok ht.symm,
      by have h2 := h; rw [← ht] at h2; exact h2, he, hb⟩
  | cons x l ih =>
    intro t f ring c post junk h hc hf hm hfn hl hb he
    simp only [List.length_cons] at hl
    obtain ⟨b1, pf1, e1, d1, a1, a2⟩ := readFrame_bk_te junk h hf hm hfn (by omega) (by simp; omega) hb
    obtain ⟨b2, pf2, e2, d2, q1, q2⟩ := ih { t with b := b1, lrecl := t.lrecl - 1, posFrame := pf1 } f ring c
      (x :: post) (c[pre.length + (x :: l).length - 1]'(by have := h.rep.pos_le; simp at this ⊢; omega))
      (by simpa [← Nat.add_assoc] using d1) (by simp [hc]) hf hm hfn
      (by show t.lrecl - 1 = l.length; omega) a2 (by rcases a1 with q | q <;> simp [q, he])
    refine ⟨b2, pf2, ?_, d2, q1, q2⟩
    rw [List.length_cons, skipLoop, e1, bind_ok]; exact e2

theorem finishBack_te {t f ring c pre post} (fuel junk n : Nat) (rs : List Nat)
    (h : Drive t f ring c ((pre ++ le32 n).length + rs.length)) (hc : c = pre ++ le32 n ++ rs.reverse ++ post)
    (hf : IsTE f) (hm : t.mark = false) (hfn : t.func = .rdback) (hl : t.lrecl = rs.length) (hb : t.b.bot = false)
    (he : t.b.eot = false) (hpar : t.parity = false) :
    ∃ t', finishRec fuel junk t = .ok (.ok, t') ∧ Drive t' f ring c pre.length ∧
      t'.b.eot = false ∧ t'.b.bot = false ∧ t'.b.posBuff < W := by
  obtain ⟨b1, pf1, e1, d1, a1, a2⟩ := skipLoop_bk_te (pre ++ le32 n) rs t f ring c post junk h hc hf hm hfn hl hb he
  obtain ⟨b3, e3, r3, g1, g2, g3, g4⟩ := bkLoop_ok pre 4 (le32 n) b1 c (rs.reverse ++ post) [] (le32_length _)
    (by have := d1.rep; simpa [List.length_append] using this) (by simp [hc]) a2
  rw [le32_length, List.append_nil] at e3
  refine ⟨{ t with b := b3, lrecl := num4 (le32 n), posFrame := pf1, func := .none }, ?_, ⟨r3, h.fmt, h.ring, ?_⟩,
    by rcases g1 with q | q <;> simp [q, a1], g2, g4 (by simp)⟩
  · unfold finishRec
    rw [if_neg (by simp [h.rep.opened]), if_pos (by rw [h.fmt]; exact hf), if_neg (by simp [hm]), hfn]
    simp only
    rw [hl, e1, bind_ok]
    simp only
    rw [e3, bind_ok]
    simp [finishEnd, hpar]
  · exact g3.trans d1.wrt

theorem bwd_data_te {t f ring c pre post} (fuel junk k : Nat) (fin : Bool) (bs : List Nat)
    (h : Drive t f ring c (pre.length + (image f (.data bs)).length)) (hf : IsTE f)
    (hc : c = pre ++ image f (.data bs) ++ post)
    (hne : bs ≠ []) (hn : bs.length < 4294967295) (hb : t.b.bot = false) :
    ∃ t', opStep fuel junk (.bwd k fin) t = .ok (readItem k fin true (.data bs), t') ∧
      Drive t' f ring c pre.length ∧ t'.b.eot = false ∧ t'.b.bot = false ∧ t'.b.posBuff < W := by
  have h0 : bs.length ≠ 0 := by simpa using hne
  rw [image_te f hf] at hc h
  obtain ⟨t1, e1, d1, a1, a2, a3, a4, a5, a6, a7⟩ := readBack_te (pre := pre ++ le32 bs.length) (post := post) bs.length bs
    (by simpa [Nat.add_assoc] using h) rfl hf (by simp [hc]) hb hn
  rw [if_neg h0] at e1
  obtain ⟨b2, pf2, e2, d2, b1', b2'⟩ := frames_bk_te junk (pre ++ le32 bs.length) k bs.reverse t1 f ring c
    (padOf f bs.length ++ le32 bs.length ++ post) (by simpa [Nat.add_assoc] using d1) (by simp [hc]) hf (by simp [a3, h0])
    a5 (by simp [a4]) a2 a1
  obtain ⟨t3, e3, d3, c1, c2, c3⟩ := finishBack_te
    (t := { t1 with b := b2, lrecl := (bs.reverse.drop k).length, posFrame := pf2 })
    (pre := pre) (post := (bs.reverse.take k).reverse ++ (padOf f bs.length ++ le32 bs.length ++ post)) fuel junk bs.length
    (bs.reverse.drop k) d2
    (by
      have : (bs.reverse.drop k).reverse ++ (bs.reverse.take k).reverse = bs := by
        rw [← List.reverse_append, List.take_append_drop, List.reverse_reverse]
      rw [hc]
      have e : (pre ++ le32 bs.length ++ (bs.reverse.drop k).reverse ++ ((bs.reverse.take k).reverse ++
          (padOf f bs.length ++ le32 bs.length ++ post))) = pre ++ le32 bs.length ++ ((bs.reverse.drop k).reverse ++
          (bs.reverse.take k).reverse) ++ (padOf f bs.length ++ le32 bs.length ++ post) := by
        simp only [List.append_assoc]
      rw [e, this]; simp only [List.append_assoc])
    hf (by simp [a3, h0]) a5 rfl b2' b1' a6
  refine ⟨t3, ?_, d3, c1, c2, c3⟩
  simp only [opStep, readOp, e1, bind_ok, if_true, e2, e3]
  rfl

theorem bwd_mark_te {t f ring c pre post} (fuel junk k : Nat) (fin : Bool) (h : Drive t f ring c (pre.length + 4))
    (hf : IsTE f) (hc : c = pre ++ [0, 0, 0, 0] ++ post) (hb : t.b.bot = false) :
    ∃ t', opStep fuel junk (.bwd k fin) t = .ok (readItem k fin true .mark, t') ∧
      Drive t' f ring c pre.length ∧ t'.b.eot = false ∧ t'.b.bot = false ∧ t'.b.posBuff < W := by
  have hl : le32 0 = [0, 0, 0, 0] := by simp [le32_eq, bytes4]
  have hp : padOf f 0 = [] := by simp [padOf]
  obtain ⟨t1, e1, d1, a1, a2, a3, a4, a5, a6, a7⟩ := readBack_te (pre := pre) (post := post) 0 []
    (by simpa [hl, hp] using h) rfl hf (by simp [hc, hl, hp]) hb (by omega)
  rw [if_pos rfl] at e1
  obtain ⟨t2, e2, d2, eb⟩ := markOp_te readBack fuel junk k fin true e1 (by simpa using d1) hf (by simp [a3])
  exact ⟨t2, e2, d2, by rw [eb]; exact a1, by rw [eb]; exact a2, by rw [eb]; exact a7⟩

theorem bwd_bot_te {t f ring c} (fuel junk k : Nat) (fin : Bool) (h : Drive t f ring c 0) (hf : IsTE f) :
    ∃ t', opStep fuel junk (.bwd k fin) t = .ok (.read .bot [] none, t') ∧
      Drive t' f ring c 0 ∧ t'.b.eot = false ∧ t'.b.bot = true ∧ t'.b.posBuff < W := by
  have h0 : t.b.posBuff = 0 := by have := h.rep.pat; omega
  by_cases hb : t.b.bot = true
  · refine ⟨{ t with b := { t.b with eot := false }, mark := false }, ?_,
      ⟨h.rep.clrEot false, h.fmt, h.ring, h.wrt⟩, rfl, hb, by show t.b.posBuff < W; rw [h0]; exact W_pos⟩
    have : readBack t = .ok (.bot, { t with b := { t.b with eot := false }, mark := false }) := by
      unfold readBack
      rw [if_neg (by simp [h.rep.opened])]
      simp only
      rw [if_pos hb]
    simp [opStep, readOp, this]
  · obtain ⟨b', e, r, a1, a2, a3, a4⟩ := bkLoop_bot _ c 3 (h.rep.clrEot false)
    have : readBack t = .ok (.bot, { t with b := b', mark := false, parity := false, func := .rdback, srec := t.b.pos + t.b.posBuff }) := by
      unfold readBack
      rw [if_neg (by simp [h.rep.opened])]
      simp only
      rw [if_neg hb, if_pos (by rw [h.fmt]; exact hf), e]
      simp
    refine ⟨{ t with b := b', mark := false, parity := false, func := .rdback, srec := t.b.pos + t.b.posBuff },
      by simp only [opStep, readOp, this, bind_ok]; simp, ⟨r, h.fmt, h.ring, a3.trans h.wrt⟩, a1, a2, ?_⟩
    show b'.posBuff < W
    rw [a4]; exact W_pos

end Verif.Tape
