import Verif.Tape.RecP7b
/-! # The drive shows the items of the tape: simulation of the item row by the buffered file -/
namespace Verif.Tape

/-! ## More fuel does not change a result -/

theorem bind_eq_ok {α β : Type} {x : Res α} {g : α → Res β} {r : β} (h : (x >>= g) = .ok r) :
    ∃ a, x = .ok a ∧ g a = .ok r := by
  cases x with
  | ok a => exact ⟨a, rfl, h⟩
  | oob => exact absurd h (by simp [bind, Res.bind])
  | hang => exact absurd h (by simp [bind, Res.bind])

theorem irgLoop_mono : ∀ (n m : Nat) (t : Tape) (d : Nat) (r : Bool × Tape), n ≤ m → irgLoop n t d = .ok r →
    irgLoop m t d = .ok r := by
  intro n
  induction n with
  | zero =>
    intro m t d r _ h
    unfold irgLoop at h ⊢
    by_cases h2 : t.lrecl = 2
    · rw [if_pos h2] at h ⊢; exact h
    · rw [if_neg h2] at h; simp at h
  | succ n ih =>
    intro m t d r hm h
    obtain ⟨k, rfl⟩ : ∃ k, m = k + 1 := ⟨m - 1, by omega⟩
    unfold irgLoop at h ⊢
    by_cases h2 : t.lrecl = 2
    · rw [if_pos h2] at h ⊢; exact h
    · rw [if_neg h2] at h ⊢
      simp only at h ⊢
      obtain ⟨⟨s, d', t'⟩, e, h⟩ := bind_eq_ok h
      rw [e, bind_ok]
      simp only at h ⊢
      by_cases hs : s = .fileError
      · rw [if_pos hs] at h ⊢; exact h
      · rw [if_neg hs] at h ⊢
        exact ih k t' d' r (by omega) h

theorem finishRec_mono (n m junk : Nat) (t : Tape) (r : St × Tape) (hnm : n ≤ m) (h : finishRec n junk t = .ok r) :
    finishRec m junk t = .ok r := by
  unfold finishRec at h ⊢
  by_cases h1 : t.b.opened = false
  · rw [if_pos h1] at h ⊢; exact h
  rw [if_neg h1] at h ⊢
  by_cases h2 : t.fmt = .tap ∨ t.fmt = .e11
  · rw [if_pos h2] at h ⊢; exact h
  rw [if_neg h2] at h ⊢
  by_cases h3 : t.fmt = .p7b
  · rw [if_pos h3] at h ⊢
    by_cases h4 : t.mark = true
    · rw [if_pos h4] at h ⊢; exact h
    rw [if_neg h4] at h ⊢
    cases hfn : t.func <;> rw [hfn] at h <;> simp only at h ⊢ <;> try exact h
    all_goals
      obtain ⟨⟨e, t'⟩, e1, h⟩ := bind_eq_ok h
      rw [irgLoop_mono n m t junk _ hnm e1, bind_ok]
      exact h
  · rw [if_neg h3] at h ⊢; exact h

theorem rewindLoop_mono (k : Nat) : ∀ (n m : Nat) (t r : Tape), n ≤ m → rewindLoop k n t = .ok r →
    rewindLoop k m t = .ok r := by
  intro n
  induction n with
  | zero => intro m t r _ h; simp [rewindLoop] at h
  | succ n ih =>
    intro m t r hm h
    obtain ⟨j, rfl⟩ : ∃ j, m = j + 1 := ⟨m - 1, by omega⟩
    unfold rewindLoop at h ⊢
    rcases hr : rewindFrames t k with ⟨s, t'⟩
    rw [hr] at h
    cases s <;> simp only at h ⊢ <;> first | exact h | exact ih j t' r (by omega) h

theorem readOp_mono (start : Tape → Res (St × Tape)) (n m junk k : Nat) (fin : Bool) (t : Tape) (r : Obs × Tape)
    (hnm : n ≤ m) (h : readOp start n junk k fin t = .ok r) : readOp start m junk k fin t = .ok r := by
  unfold readOp at h ⊢
  obtain ⟨⟨s, t1⟩, e1, h⟩ := bind_eq_ok h
  rw [e1, bind_ok]
  simp only at h ⊢
  by_cases hs : s = .ok
  · rw [if_pos hs] at h ⊢
    obtain ⟨⟨l, t2⟩, e2, h⟩ := bind_eq_ok h
    rw [e2, bind_ok]
    simp only at h ⊢
    obtain ⟨⟨f, t3⟩, e3, h⟩ := bind_eq_ok h
    rw [finishRec_mono n m junk t2 _ hnm e3, bind_ok]
    exact h
  rw [if_neg hs] at h ⊢
  by_cases hs2 : s = .mark
  · rw [if_pos hs2] at h ⊢
    obtain ⟨⟨l, t2⟩, e2, h⟩ := bind_eq_ok h
    rw [e2, bind_ok]
    simp only at h ⊢
    cases fin with
    | true =>
      rw [if_pos rfl] at h ⊢
      obtain ⟨⟨f, t3⟩, e3, h⟩ := bind_eq_ok h
      rw [finishRec_mono n m junk t2 _ hnm e3, bind_ok]
      exact h
    | false => exact h
  · rw [if_neg hs2] at h ⊢; exact h

theorem opStep_mono (n m junk : Nat) (o : Op) (t : Tape) (r : Obs × Tape) (hnm : n ≤ m)
    (h : opStep n junk o t = .ok r) : opStep m junk o t = .ok r := by
  cases o with
  | write i =>
    cases i with
    | mark => exact h
    | data bs =>
      simp only [opStep] at h ⊢
      obtain ⟨⟨s, t1⟩, e1, h⟩ := bind_eq_ok h
      rw [e1, bind_ok]
      simp only at h ⊢
      obtain ⟨⟨l, t2⟩, e2, h⟩ := bind_eq_ok h
      rw [e2, bind_ok]
      simp only at h ⊢
      obtain ⟨⟨f, t3⟩, e3, h⟩ := bind_eq_ok h
      rw [finishRec_mono n m junk t2 _ hnm e3, bind_ok]
      exact h
  | fwd k fin => exact readOp_mono _ n m junk k fin t r hnm h
  | bwd k fin => exact readOp_mono _ n m junk k fin t r hnm h
  | rewind k =>
    simp only [opStep] at h ⊢
    obtain ⟨t1, e1, h⟩ := bind_eq_ok h
    rw [rewindLoop_mono k n m _ _ hnm e1, bind_ok]
    exact h

theorem opRun_mono (n m junk : Nat) (hnm : n ≤ m) : ∀ (ops : List Op) (t : Tape) (r : List Obs × Tape),
    opRun n junk ops t = .ok r → opRun m junk ops t = .ok r := by
  intro ops
  induction ops with
  | nil => intro t r h; exact h
  | cons o l ih =>
    intro t r h
    unfold opRun at h ⊢
    obtain ⟨⟨a, t1⟩, e1, h⟩ := bind_eq_ok h
    rw [opStep_mono n m junk o t _ hnm e1, bind_ok]
    simp only at h ⊢
    obtain ⟨⟨q, t2⟩, e2, h⟩ := bind_eq_ok h
    rw [ih t1 _ e2, bind_ok]
    exact h

/-! ## One operation, for all formats -/

theorem op_write {t f c p} (fuel junk : Nat) (i : Item) (h : Drive t f true c p) (hf : f ≠ .other)
    (hg : ¬ CleanEnd t.b) (hfit : Fits f i) :
    ∃ t', opStep fuel junk (.write i) t = .ok (wroteAll i, t') ∧
      Drive t' f true (over c p (image f i)) (p + (image f i).length) ∧
      t'.b.eot = t.b.eot ∧ t'.b.bot = false ∧ ¬ CleanEnd t'.b := by
  by_cases hte : IsTE f
  · cases i with
    | mark =>
      obtain ⟨t', e, d, a1, a2, a3⟩ := writeMark_te h hte hg
      refine ⟨t', ?_, by rw [image_te_mark f hte]; exact d, a1, a2, a3⟩
      simp [opStep, e, wroteAll]
    | data bs => exact writeData_te fuel junk bs h hte hg hfit.2.1
  · have hp : f = .p7b := by
      cases f with
      | tap => exact absurd (Or.inl rfl) hte
      | e11 => exact absurd (Or.inr rfl) hte
      | p7b => rfl
      | other => exact absurd rfl hf
    subst hp
    cases i with
    | mark =>
      obtain ⟨t', e, d, a1, a2, a3⟩ := writeMark_p7 h hg
      refine ⟨t', ?_, d, a1, a2, a3⟩
      simp [opStep, e, wroteAll]
    | data bs =>
      obtain ⟨h1, h2, h3⟩ := hfit
      rw [if_pos rfl] at h3
      exact writeData_p7 fuel junk bs h hg h1 h2 h3.1

theorem p7_of {f : Fmt} (hf : f ≠ .other) (hte : ¬ IsTE f) : f = .p7b := by
  cases f with
  | tap => exact absurd (Or.inl rfl) hte
  | e11 => exact absurd (Or.inr rfl) hte
  | p7b => rfl
  | other => exact absurd rfl hf

/-- The first byte of an item in the P7B layout has the record flag. -/
theorem image_p7_head (i : Item) (h : Fits .p7b i) : ∃ y l, image .p7b i = y :: l ∧ y / 128 % 2 = 1 := by
  cases i with
  | mark => exact ⟨0x8f, [], rfl, rfl⟩
  | data bs =>
    obtain ⟨h1, _, h3⟩ := h
    rw [if_pos rfl] at h3
    cases bs with
    | nil => exact absurd rfl h1
    | cons x l => exact ⟨x + 128, l, rfl, by have := h3.1 x (by simp); omega⟩

theorem op_fwd {t f ring c pre post} (fuel junk k : Nat) (fin : Bool) (i : Item) (h : Drive t f ring c pre.length)
    (hf : f ≠ .other) (hc : c = pre ++ image f i ++ post) (hfit : Fits f i) (he : t.b.eot = false)
    (hnext : f = .p7b → i = .mark ∨ ∃ y l, post = y :: l ∧ y / 128 % 2 = 1) (hfu : (image f i).length < fuel) :
    ∃ t', opStep fuel junk (.fwd k fin) t = .ok (readItem k fin false i, t') ∧
      Drive t' f ring c (pre.length + (image f i).length) ∧ t'.b.eot = false ∧ t'.b.bot = false := by
  by_cases hte : IsTE f
  · cases i with
    | mark =>
      rw [image_te_mark f hte] at hc ⊢
      exact fwd_mark_te fuel junk k fin h hte hc he
    | data bs => exact fwd_data_te fuel junk k fin bs h hte hc hfit.1 hfit.2.1 he
  · have hp := p7_of hf hte
    subst hp
    cases i with
    | mark => exact fwd_mark_p7 fuel junk k fin h hc he
    | data bs =>
      obtain ⟨h1, h2, h3⟩ := hfit
      rw [if_pos rfl] at h3
      rcases hnext rfl with q | ⟨y, l, rfl, hy⟩
      · cases q
      · obtain ⟨t', e, d, a1, a2, _⟩ := fwd_data_p7 fuel junk k y fin bs h hc hy h1 h3.1 h3.2 he
          (by rw [image_p7, raw_length] at hfu; exact hfu)
        exact ⟨t', e, d, a1, a2⟩

theorem op_end {t f ring c} (fuel junk k : Nat) (fin : Bool) (h : Drive t f ring c c.length) (hf : f ≠ .other)
    (he : f = .p7b → t.b.eot = false) (hg : t.b.eot = true → ¬ CleanEnd t.b) :
    ∃ t', opStep fuel junk (.fwd k fin) t = .ok (.read .eot [] none, t') ∧
      Drive t' f ring c c.length ∧ t'.b.eot = (t.b.eot || f != .p7b) ∧ t'.b.bot = false ∧ ¬ CleanEnd t'.b := by
  by_cases hte : IsTE f
  · obtain ⟨t', e, d, a1, a2, a3⟩ := fwd_end_te fuel junk k fin h hte hg
    refine ⟨t', e, d, ?_, a2, a3⟩
    rw [a1]
    rcases hte with q | q <;> subst q <;> simp
  · have hp := p7_of hf hte
    subst hp
    obtain ⟨t', e, d, a1, a2, a3⟩ := fwd_end_p7 fuel junk k fin h (he rfl)
    exact ⟨t', e, d, by simp [a1, he rfl], a2, a3⟩

theorem op_bwd {t f ring c pre post} (fuel junk k : Nat) (fin : Bool) (i : Item)
    (h : Drive t f ring c (pre.length + (image f i).length))
    (hf : f ≠ .other) (hc : c = pre ++ image f i ++ post) (hfit : Fits f i) (hb : t.b.bot = false)
    (hfu : (image f i).length < fuel) :
    ∃ t', opStep fuel junk (.bwd k fin) t = .ok (readItem k fin true i, t') ∧
      Drive t' f ring c pre.length ∧ t'.b.eot = false ∧ t'.b.bot = false ∧ t'.b.posBuff < W := by
  by_cases hte : IsTE f
  · cases i with
    | mark =>
      rw [image_te_mark f hte] at hc h
      exact bwd_mark_te fuel junk k fin h hte hc hb
    | data bs => exact bwd_data_te fuel junk k fin bs h hte hc hfit.1 hfit.2.1 hb
  · have hp := p7_of hf hte
    subst hp
    cases i with
    | mark => exact bwd_mark_p7 fuel junk k fin h hc hb
    | data bs =>
      obtain ⟨h1, h2, h3⟩ := hfit
      rw [if_pos rfl] at h3
      exact bwd_data_p7 fuel junk k fin bs h hc h1 h3.1 h3.2 hb
          (by rw [image_p7, raw_length] at hfu; exact hfu)

theorem op_bot {t f ring c} (fuel junk k : Nat) (fin : Bool) (h : Drive t f ring c 0) (hf : f ≠ .other) :
    ∃ t', opStep fuel junk (.bwd k fin) t = .ok (.read .bot [] none, t') ∧
      Drive t' f ring c 0 ∧ t'.b.eot = false ∧ t'.b.bot = true ∧ t'.b.posBuff < W := by
  by_cases hte : IsTE f
  · exact bwd_bot_te fuel junk k fin h hte
  · have hp := p7_of hf hte
    subst hp
    exact bwd_bot_p7 fuel junk k fin h

/-! ## Rewind -/

theorem rewindLoop_ok (n : Nat) (hn : 0 < n) : ∀ (fuel : Nat) (t : Tape), t.b.opened = true → t.posFrame < fuel →
    rewindLoop n (fuel + 1) t = .ok { t with b := { t.b with bot := true }, posFrame := 0 } := by
  intro fuel
  induction fuel with
  | zero =>
    intro t ho hp
    have : rewindFrames t n = (.bot, { t with b := { t.b with bot := true }, posFrame := 0 }) := by
      unfold rewindFrames
      rw [if_neg (by simp [ho]), if_pos (by simp at hp; omega)]
    simp [rewindLoop, this]
  | succ k ih =>
    intro t ho hp
    unfold rewindLoop
    by_cases h1 : t.posFrame < n
    · have : rewindFrames t n = (.bot, { t with b := { t.b with bot := true }, posFrame := 0 }) := by
        unfold rewindFrames
        rw [if_neg (by simp [ho]), if_pos h1]
      simp [this]
    · have : rewindFrames t n = (.ok, { t with posFrame := t.posFrame - n }) := by
        unfold rewindFrames
        rw [if_neg (by simp [ho]), if_neg h1]
      rw [this]
      simp only
      rw [ih { t with posFrame := t.posFrame - n } ho (by show t.posFrame - n < k; omega)]

theorem op_rewind {t f ring c p} (junk n : Nat) (h : Drive t f ring c p) (hn : 0 < n) :
    ∃ fuel t', opStep fuel junk (.rewind n) t = .ok (.rewound .ok true, t') ∧ Drive t' f ring c 0 ∧
      t'.b.eot = t.b.eot ∧ t'.b.bot = true ∧ t'.b.posBuff < W ∧ atLoadpt t' = true := by
  obtain ⟨b1, e1, r1, a1, a2⟩ : ∃ b1, startRewind t = (.ok, { t with b := b1 }) ∧ Rep b1 c 0 ∧
      b1.eot = t.b.eot ∧ b1.writable = t.b.writable := by
    have hz : ∀ b : Buf, Rep b c p → b.dirty = false → Rep { b with pos := 0, posBuff := 0, lenBuff := 0 } c 0 := by
      intro b hb hd
      exact ⟨hb.opened, by simp [hd], hb.blen, Nat.le_refl _, Nat.zero_le _, Nat.zero_le _, rfl,
        by simp [hb.clean hd], fun _ => hb.clean hd⟩
    by_cases hd : t.b.dirty = true
    · refine ⟨_, ?_, hz _ h.rep.flushed rfl, rfl, rfl⟩
      unfold startRewind
      rw [if_pos hd, h.rep.flush hd]
    · refine ⟨_, ?_, hz _ h.rep (by simpa using hd), rfl, rfl⟩
      unfold startRewind
      rw [if_neg hd]
  refine ⟨t.posFrame.toNat + 1 + 1, { t with b := { b1 with bot := true }, posFrame := 0 }, ?_,
    ⟨r1.clrBot true, h.fmt, h.ring, a2.trans h.wrt⟩, a1, rfl, ?_, rfl⟩
  · simp only [opStep, e1]
    rw [rewindLoop_ok n hn (t.posFrame.toNat + 1) { t with b := b1 } r1.opened
      (by show t.posFrame < ((t.posFrame.toNat + 1 : Nat) : Int); omega), bind_ok]
    rfl
  · have := r1.pat; have := W_pos
    show b1.posBuff < W
    omega

/-! ## The simulation -/

/-- Drive `t` holds the tape `z`, followed by the bytes `rest`. -/
structure Rel (f : Fmt) (rg : Bool) (rest : List Nat) (t : Tape) (z : Z) : Prop where
  drive : Drive t f rg (images f z.before.reverse ++ images f z.after ++ rest) (images f z.before.reverse).length
  isEnd : z.isEnd = true → rest = []
  eot : t.b.eot = z.eot
  eotEnd : z.eot = true → z.after = [] ∧ ¬ CleanEnd t.b
  eotP7 : f = .p7b → z.eot = false
  bot : t.b.bot = true → z.before = []
  fitB : ∀ i ∈ z.before, Fits f i
  fitA : ∀ i ∈ z.after, Fits f i
  clean : z.justRead = false → ¬ CleanEnd t.b

theorem images_nil (f : Fmt) : images f [] = [] := rfl
theorem images_cons (f : Fmt) (i : Item) (l : List Item) : images f (i :: l) = image f i ++ images f l := rfl
theorem images_append (f : Fmt) (a b : List Item) : images f (a ++ b) = images f a ++ images f b := by
  simp [images]
theorem images_snoc (f : Fmt) (l : List Item) (i : Item) : images f ((i :: l).reverse) = images f l.reverse ++ image f i := by
  simp [images]

theorem not_clean_of_lt {b : Buf} (h : b.posBuff < W) : ¬ CleanEnd b := by rintro ⟨q, _⟩; omega

theorem step_refines {f rg rest t z} (junk : Nat) (hf : f ≠ .other) (o : Op) (h : Rel f rg rest t z)
    (hpre : OpPre f rg o z) :
    ∃ fuel t' rest', opStep fuel junk o t = .ok ((specStep f o z).1, t') ∧ Rel f rg rest' t' (specStep f o z).2 := by
  cases o with
  | write i =>
    obtain ⟨hr, hfit, hj⟩ := hpre
    subst hr
    obtain ⟨t', e, d, a1, a2, a3⟩ := op_write 0 junk i h.drive hf (h.clean hj) hfit
    refine ⟨0, t', (images f z.after ++ rest).drop (image f i).length, e, ⟨?_, ?_, a1.trans h.eot, ?_, h.eotP7, ?_, ?_, ?_, fun _ => a3⟩⟩
    · show Drive t' f true (images f ((i :: z.before).reverse) ++ images f [] ++
        (images f z.after ++ rest).drop (image f i).length) (images f ((i :: z.before).reverse)).length
      rw [images_snoc, images_nil, List.append_nil, List.length_append]
      have : over (images f z.before.reverse ++ images f z.after ++ rest) (images f z.before.reverse).length (image f i) =
          images f z.before.reverse ++ image f i ++ (images f z.after ++ rest).drop (image f i).length := by
        unfold over
        rw [List.append_assoc (images f z.before.reverse) (images f z.after), List.take_left, ← List.drop_drop, List.drop_left]
      rw [← this]
      exact d
    · intro he
      have he : z.after.isEmpty = true ∧ z.isEnd = true := by simpa [specStep] using he
      rw [h.isEnd he.2, List.isEmpty_iff.mp he.1]
      simp [images]
    · intro _; exact ⟨rfl, a3⟩
    · intro hb; rw [a2] at hb; cases hb
    · intro j hj
      rcases List.mem_cons.mp hj with q | q
      · rw [q]; exact hfit
      · exact h.fitB j q
    · intro j hj; cases hj
  | fwd k fin =>
    obtain ⟨hend, hp7⟩ := hpre
    cases ha : z.after with
    | nil =>
      have hr : rest = [] := h.isEnd (hend ha)
      have hd := h.drive
      rw [ha, hr, images_nil, List.append_nil, List.append_nil] at hd
      obtain ⟨t', e, d, a1, a2, a3⟩ := op_end 0 junk k fin hd hf (fun q => h.eot.trans (h.eotP7 q))
        (fun q => (h.eotEnd (by rw [← h.eot]; exact q)).2)
      have hs : specStep f (.fwd k fin) z = (.read .eot [] none, { z with eot := z.eot || f != .p7b, justRead := false }) := by
        simp [specStep, ha]
      rw [hs]
      refine ⟨0, t', [], e, ⟨?_, fun _ => rfl, ?_, fun _ => ⟨ha, a3⟩, ?_, ?_, h.fitB, h.fitA, fun _ => a3⟩⟩
      · simp only [ha, images_nil, List.append_nil]; exact d
      · rw [a1, h.eot]
      · intro q; simp [h.eotP7 q, q]
      · intro hb; rw [a2] at hb; cases hb
    | cons i r =>
      have hd := h.drive
      rw [ha, images_cons] at hd
      have he : t.b.eot = false := by
        rw [h.eot]
        cases hz : z.eot with
        | false => rfl
        | true => have := (h.eotEnd hz).1; rw [ha] at this; cases this
      obtain ⟨t', e, d, a1, a2⟩ := op_fwd ((image f i).length + 1) junk k fin i (post := images f r ++ rest) hd hf (by simp)
        (h.fitA i (by simp [ha])) he (by
          intro q
          cases i with
          | mark => exact Or.inl rfl
          | data bs =>
            right
            cases r with
            | nil => exact absurd ha (hp7 q bs)
            | cons j r =>
              subst q
              obtain ⟨y, l, e, hy⟩ := image_p7_head j (h.fitA j (by simp [ha]))
              exact ⟨y, l ++ images .p7b r ++ rest, by simp [images_cons, e], hy⟩)
        (by omega)
      have hs : specStep f (.fwd k fin) z = (readItem k fin false i, { z with before := i :: z.before, after := r, justRead := true }) := by
        simp [specStep, ha]
      rw [hs]
      refine ⟨_, t', rest, e, ⟨?_, h.isEnd, a1.trans (by rw [← h.eot, he]), ?_, h.eotP7, ?_, ?_, ?_, ?_⟩⟩
      · simp only [images_snoc]
        rw [List.length_append]
        simpa using d
      · intro hz
        have := (h.eotEnd hz).1
        rw [ha] at this; cases this
      · intro hb; rw [a2] at hb; cases hb
      · intro j hj
        rcases List.mem_cons.mp hj with q | q
        · rw [q]; exact h.fitA i (by simp [ha])
        · exact h.fitB j q
      · intro j hj; exact h.fitA j (by rw [ha]; exact List.mem_cons_of_mem _ hj)
      · intro q; cases q
  | bwd k fin =>
    cases hb : z.before with
    | nil =>
      have hd := h.drive
      rw [hb] at hd
      obtain ⟨t', e, d, a1, a2, a3⟩ := op_bot 0 junk k fin hd hf
      have hs : specStep f (.bwd k fin) z = (.read .bot [] none, { z with eot := false, justRead := false }) := by
        simp [specStep, hb]
      rw [hs]
      refine ⟨0, t', rest, e, ⟨?_, h.isEnd, a1, by simp, fun _ => rfl, fun _ => hb, h.fitB, h.fitA,
        fun _ => not_clean_of_lt a3⟩⟩
      simp only [hb]
      exact d
    | cons i r =>
      have hd := h.drive
      rw [hb, images_snoc] at hd
      have hbot : t.b.bot = false := by
        cases hq : t.b.bot with
        | false => rfl
        | true => have := h.bot hq; rw [hb] at this; cases this
      obtain ⟨t', e, d, a1, a2, a3⟩ := op_bwd ((image f i).length + 1) junk k fin i (pre := images f r.reverse)
        (post := images f z.after ++ rest)
        (by rw [List.length_append] at hd; exact hd) hf (by simp) (h.fitB i (by simp [hb])) hbot (by omega)
      have hs : specStep f (.bwd k fin) z = (readItem k fin true i, { z with before := r, after := i :: z.after, eot := false, justRead := false }) := by
        simp [specStep, hb]
      rw [hs]
      refine ⟨_, t', rest, e, ⟨?_, h.isEnd, a1, by simp, fun _ => rfl, ?_, ?_, ?_, fun _ => not_clean_of_lt a3⟩⟩
      · simp only [images_cons]
        simpa using d
      · intro q; rw [a2] at q; cases q
      · intro j hj; exact h.fitB j (by rw [hb]; exact List.mem_cons_of_mem _ hj)
      · intro j hj
        rcases List.mem_cons.mp hj with q | q
        · rw [q]; exact h.fitB i (by simp [hb])
        · exact h.fitA j q
  | rewind n =>
    obtain ⟨he, hn⟩ := hpre
    obtain ⟨fuel, t', e, d, a1, a2, a3, _⟩ := op_rewind junk n h.drive hn
    refine ⟨fuel, t', rest, e, ⟨?_, h.isEnd, a1.trans h.eot, ?_, h.eotP7, fun _ => rfl, ?_, ?_,
      fun _ => not_clean_of_lt a3⟩⟩
    · simp only [specStep, List.reverse_nil, images_nil, List.nil_append, images_append]
      exact d
    · intro q
      have q : z.eot = true := q
      rw [he] at q; cases q
    · intro j hj; cases hj
    · intro j hj
      rcases List.mem_append.mp hj with q | q
      · exact h.fitB j (List.mem_reverse.mp q)
      · exact h.fitA j q

theorem run_refines {f rg} (junk : Nat) (hf : f ≠ .other) : ∀ (ops : List Op) (t : Tape) (z : Z) (rest : List Nat),
    Rel f rg rest t z → OpsPre f rg ops z →
    ∃ fuel t' rest', opRun fuel junk ops t = .ok ((specRun f ops z).1, t') ∧ Rel f rg rest' t' (specRun f ops z).2 := by
  intro ops
  induction ops with
  | nil => intro t z rest h _; exact ⟨0, t, rest, rfl, h⟩
  | cons o l ih =>
    intro t z rest h hp
    obtain ⟨f1, t1, r1, e1, h1⟩ := step_refines junk hf o h hp.1
    obtain ⟨f2, t2, r2, e2, h2⟩ := ih t1 _ r1 h1 hp.2
    refine ⟨max f1 f2, t2, r2, ?_, h2⟩
    unfold opRun
    rw [opStep_mono f1 _ junk o t _ (Nat.le_max_left ..) e1, bind_ok]
    simp only
    rw [opRun_mono f2 _ junk (Nat.le_max_right ..) l t1 _ e2, bind_ok]
    rfl

/-- A freshly mounted tape. -/
theorem attach_rel (t : Tape) (f : Fmt) (rg den : Bool) (items : List Item) (rest : List Nat) (hb : t.b.buffer.length = W)
    (hfit : ∀ i ∈ items, Fits f i) :
    Rel f rg rest (attach t (images f items ++ rest) f rg den)
      { before := [], after := items, isEnd := rest.isEmpty, eot := false, justRead := false } := by
  refine ⟨⟨?_, rfl, rfl, rfl⟩, ?_, rfl, by simp, fun _ => rfl, fun _ => rfl, by simp, hfit, ?_⟩
  · refine ⟨rfl, by simp [attach], hb, Nat.le_refl _, Nat.zero_le _, Nat.zero_le _, rfl, ?_, fun _ => ?_⟩ <;>
      simp [attach, images_nil]
  · intro h; simpa using h
  · intro _
    exact not_clean_of_lt (show 0 < W from W_pos)

/-- What unmounting leaves in the host file. -/
theorem detach_file {t c p} (h : Rep t.b c p) : (detach t).b.file = c := by
  unfold detach
  by_cases hd : t.b.dirty = true
  · simp only [hd, if_true, h.flush hd]
  · simp only [hd]
    exact (h.clean (by simpa using hd)).symm

end Verif.Tape
