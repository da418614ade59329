import Verif.Tape.Bytes
/-! # Loops over several bytes, in terms of the shown content -/
namespace Verif.Tape

theorem rdLoop_ok (post : List Nat) : ∀ (bs : List Nat) (b : Buf) (c pre : List Nat), Rep b c pre.length →
    c = pre ++ bs ++ post →
    ∃ b', rdLoop bs.length b = .ok (.ok, bs, b') ∧ Rep b' c (pre.length + bs.length) ∧ b'.eot = b.eot ∧
      b'.bot = b.bot ∧ b'.writable = b.writable := by
  intro bs
  induction bs with
  | nil => intro b c pre h _; exact ⟨b, rfl, by simpa using h, rfl, rfl, rfl⟩
  | cons x l ih =>
    intro b c pre h hc
    have hp : pre.length < c.length := by rw [hc]; simp
    obtain ⟨b1, e1, r1, a1, a2, a3, _⟩ := readByte_ok h 0 hp
    have hx : c[pre.length] = x := by simp [hc]
    obtain ⟨b2, e2, r2, d1, d2, d3⟩ := ih b1 c (pre ++ [x]) (by simpa using r1) (by simp [hc])
    refine ⟨b2, ?_, ?_, d1.trans a1, d2.trans a2, d3.trans a3⟩
    · simp only [List.length_cons, rdLoop, e1, bind_ok, if_true, e2, hx]
    · simpa [Nat.add_assoc, Nat.add_comm 1] using r2

theorem rdLoop_end (b : Buf) (c : List Nat) (n : Nat) (h : Rep b c c.length) :
    ∃ b', rdLoop (n + 1) b = .ok (.eot, [], b') ∧ Rep b' c c.length ∧ b'.eot = true ∧ b'.bot = b.bot ∧
      b'.writable = b.writable ∧ b'.posBuff = 0 := by
  obtain ⟨b1, e1, r1, a1, a2, a3, a4, _⟩ := readByte_end h 0 rfl
  refine ⟨b1, ?_, r1, a1, a2, a3, a4⟩
  simp [rdLoop, e1]

theorem bkLoop_ok (pre : List Nat) : ∀ (n : Nat) (bs : List Nat) (b : Buf) (c post acc : List Nat), bs.length = n →
    Rep b c (pre.length + bs.length) → c = pre ++ bs ++ post → b.bot = false →
    ∃ b', bkLoop bs.length b acc = .ok (.ok, bs ++ acc, b') ∧ Rep b' c pre.length ∧
      (b'.eot = b.eot ∨ b'.eot = false) ∧ b'.bot = false ∧ b'.writable = b.writable ∧
      (n ≠ 0 → b'.posBuff < W) := by
  intro n
  induction n with
  | zero =>
    intro bs b c post acc hn h _ hb
    have : bs = [] := List.length_eq_zero_iff.mp hn
    subst this
    exact ⟨b, rfl, by simpa using h, Or.inl rfl, hb, rfl, by simp⟩
  | succ n ih =>
    intro bs b c post acc hn h hc hb
    obtain ⟨l, x, rfl⟩ : ∃ l x, bs = l ++ [x] := by
      have hne : bs ≠ [] := by intro h0; simp [h0] at hn
      exact ⟨bs.dropLast, bs.getLast hne, (List.dropLast_concat_getLast hne).symm⟩
    have hl : l.length = n := by simpa using hn
    obtain ⟨b1, e1, r1, a1, a2, a3, _, a4⟩ := readbkByte_ok h 0 hb (by simp; omega)
    have hx : ∀ hq, c[pre.length + (l ++ [x]).length - 1]'hq = x := by
      intro hq
      simp [hc]
    obtain ⟨b2, e2, r2, d1, d2, d3, d4⟩ := ih l b1 c (x :: post) (x :: acc) hl
      (by simpa [Nat.add_sub_assoc, ← Nat.add_assoc] using r1) (by simp [hc]) a2
    refine ⟨b2, ?_, r2, ?_, d2, d3.trans a3, ?_⟩
    · rw [hn]
      simp only [bkLoop, e1, bind_ok, if_true, hx]
      rw [← hl, e2]; simp
    · rcases d1 with d1 | d1 <;> rcases a1 with a1 | a1 <;> simp [d1, a1]
    · intro _
      by_cases h0 : n = 0
      · subst h0
        have hl0 : l = [] := List.length_eq_zero_iff.mp hl
        subst hl0
        simp [bkLoop] at e2
        rw [← e2]; exact a4
      · exact d4 h0

theorem bkLoop_bot (b : Buf) (c : List Nat) (n : Nat) (h : Rep b c 0) :
    ∃ b', bkLoop (n + 1) b [] = .ok (.bot, [], b') ∧ Rep b' c 0 ∧ b'.eot = b.eot ∧ b'.bot = true ∧
      b'.writable = b.writable ∧ b'.posBuff = 0 := by
  obtain ⟨x, b1, e1, r1, a1, a2, a3, a4⟩ := readbkByte_bot h 0
  refine ⟨b1, ?_, r1, a2, a1, a3, a4⟩
  simp [bkLoop, e1]

theorem wrLoop_ok : ∀ (bs : List Nat) (b : Buf) (c : List Nat) (p : Nat), Rep b c p → b.writable = true →
    ¬ CleanEnd b →
    ∃ b', wrLoop bs b = .ok (.ok, b') ∧ Rep b' (over c p bs) (p + bs.length) ∧ b'.eot = b.eot ∧ b'.bot = b.bot ∧
      b'.writable = true ∧ ¬ CleanEnd b' ∧ (bs ≠ [] → b'.dirty = true) := by
  intro bs
  induction bs with
  | nil => intro b c p h hw hg; exact ⟨b, rfl, by simpa [over_nil] using h, rfl, rfl, hw, hg, by simp⟩
  | cons x l ih =>
    intro b c p h hw hg
    obtain ⟨b1, e1, r1, a1, a2, a3, a4⟩ := writeByte_ok h hw hg x
    obtain ⟨b2, e2, r2, d1, d2, d3, d4, d5⟩ := ih b1 _ _ r1 (a3.trans hw) (by simp [CleanEnd, a4])
    refine ⟨b2, ?_, ?_, d1.trans a1, d2.trans a2, d3, d4, ?_⟩
    · simp only [wrLoop, e1, bind_ok, if_true, e2]
    · have := over_over c p [x] l h.pos_le
      simp only [List.length_singleton, List.singleton_append] at this
      rw [this] at r2
      simpa [Nat.add_assoc, Nat.add_comm 1] using r2
    · intro _
      by_cases hl : l = []
      · subst hl; simp [wrLoop] at e2; rw [← e2]; exact a4
      · exact d5 hl

/-- Replacing one byte of a list that is `take ++ window ++ drop`. -/
theorem over_one_get (c : List Nat) (s x : Nat) (hs : s < c.length) (i : Nat) :
    (over c s [x])[i]? = if i = s then some x else c[i]? := by
  rw [over_get _ _ _ (by omega)]
  simp only [List.length_singleton]
  by_cases h1 : i < s
  · simp [h1, show i ≠ s by omega]
  · by_cases h2 : i = s
    · subst h2; simp
    · simp [h1, h2, show ¬ i < s + 1 by omega]

theorem over_one_set (c : List Nat) (s x : Nat) (hs : s < c.length) : over c s [x] = c.set s x := by
  apply List.ext_getElem?
  intro i
  rw [over_one_get c s x hs, List.getElem?_set]
  by_cases h : i = s
  · subst h; simp [hs]
  · rw [if_neg h, if_neg (by omega)]

theorem writePrev_ok {t : Tape} {c : List Nat} {p : Nat} (h : Rep t.b c p) (hw : t.b.writable = true)
    (hd : t.b.dirty = true) (hs : t.srec < p) (x : Nat) :
    ∃ b', writePrev t x = .ok (.ok, { t with b := b', srec := t.srec + 1 }) ∧ Rep b' (over c t.srec [x]) p ∧
      b'.eot = t.b.eot ∧ b'.bot = t.b.bot ∧ b'.writable = true ∧ b'.dirty = true := by
  have hpat := h.pat; have h1 := h.le1; have h2 := h.le2; have h3 := h.le3; have hb := h.blen
  have hpl := h.pos_le
  have hl2 : (t.b.buffer.take t.b.lenBuff).length = t.b.lenBuff := by rw [List.length_take]; omega
  unfold writePrev
  rw [if_neg (by simp [h.opened])]
  by_cases hc : t.b.pos ≤ t.srec
  · rw [if_pos ⟨hc, by omega⟩]
    simp only
    rw [if_pos (by omega), if_neg (show ¬ t.srec - t.b.pos > t.b.lenBuff by omega)]
    refine ⟨_, rfl, ?_, rfl, rfl, hw, rfl⟩
    refine ⟨h.opened, fun _ => hw, by simpa using hb, h1, h2, h3, hpat, ?_, by simp⟩
    rw [over_one_set _ _ _ (by omega)]
    show c.set t.srec x = t.b.file.take t.b.pos ++ (t.b.buffer.set (t.srec - t.b.pos) x).take t.b.lenBuff ++
      t.b.file.drop (t.b.pos + t.b.lenBuff)
    conv => lhs; rw [h.cont]
    rw [List.append_assoc, List.append_assoc, List.set_append_right _ _ (by rw [List.length_take]; omega)]
    rw [List.length_take, Nat.min_eq_left h3, List.set_append_left _ _ (by rw [hl2]; omega), List.take_set]
  · rw [if_neg (by omega), if_pos hw]
    have hwr : wr t.b.file t.srec [x] = t.b.file.set t.srec x := by
      unfold wr
      rw [if_neg (by simp), show t.srec - t.b.file.length = 0 by omega]
      rw [← over_one_set _ _ _ (by omega)]
      simp [over]
    refine ⟨_, rfl, ?_, rfl, rfl, hw, hd⟩
    rw [hwr]
    refine ⟨h.opened, h.wrt, hb, h1, h2, by simpa using h3, hpat, ?_, by simp [hd]⟩
    rw [over_one_set _ _ _ (by omega)]
    show c.set t.srec x = (t.b.file.set t.srec x).take t.b.pos ++ t.b.buffer.take t.b.lenBuff ++
      (t.b.file.set t.srec x).drop (t.b.pos + t.b.lenBuff)
    rw [List.drop_set_of_lt (by omega), List.take_set]
    conv => lhs; rw [h.cont]
    rw [List.append_assoc, List.append_assoc, List.set_append_left _ _ (by rw [List.length_take]; omega)]

theorem prevLoop_ok : ∀ (bs : List Nat) (t : Tape) (c : List Nat) (p : Nat), Rep t.b c p → t.b.writable = true →
    t.b.dirty = true → t.srec + bs.length ≤ p →
    ∃ b', prevLoop bs t = .ok (.ok, { t with b := b', srec := t.srec + bs.length }) ∧
      Rep b' (over c t.srec bs) p ∧ b'.eot = t.b.eot ∧ b'.bot = t.b.bot ∧ b'.writable = true ∧ b'.dirty = true := by
  intro bs
  induction bs with
  | nil => intro t c p h hw hd _; exact ⟨t.b, rfl, by simpa [over_nil] using h, rfl, rfl, hw, hd⟩
  | cons x l ih =>
    intro t c p h hw hd hs
    simp only [List.length_cons] at hs
    obtain ⟨b1, e1, r1, a1, a2, a3, a4⟩ := writePrev_ok h hw hd (by omega) x
    obtain ⟨b2, e2, r2, d1, d2, d3, d4⟩ := ih { t with b := b1, srec := t.srec + 1 } _ p r1 a3 a4
      (by show t.srec + 1 + l.length ≤ p; omega)
    refine ⟨b2, ?_, ?_, d1.trans a1, d2.trans a2, d3, d4⟩
    · simp only [prevLoop, e1, bind_ok, if_true, e2, List.length_cons]
      rw [show t.srec + (l.length + 1) = t.srec + 1 + l.length by omega]
    · have := over_over c t.srec [x] l (by have := h.pos_le; omega)
      simp only [List.length_singleton, List.singleton_append] at this
      rw [← this]; exact r2

end Verif.Tape
