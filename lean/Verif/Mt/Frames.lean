import Verif.Tape.Refine
/-!
# A record frame by frame

The tape layer's theorems speak of whole records.  A control unit asks for the frames one by one.
-/
namespace Verif.Mt
open Verif.Tape

/-- Asked for frames, the tape `t` gives the bytes `bs` and then says end of block; `t2` is the tape then.  What the
caller's variable held before does not matter. -/
def Gives : List Nat → Tape → Tape → Prop
  | [], t, t2 => t = t2 ∧ ∀ d, readFrame t d = .ok (.eob, d, t)
  | x :: bs, t, t2 => ∃ t1, (∀ d, readFrame t d = .ok (.ok, x, t1)) ∧ Gives bs t1 t2

theorem takeByte_st {b b' : Buf} {s : St} {x : Nat} (h : takeByte b = .ok (s, x, b')) : s = .ok := by
  unfold takeByte at h
  split at h
  · simp only [Res.ok.injEq, Prod.mk.injEq] at h; exact h.1.symm
  · cases h

theorem backByte_st {b b' : Buf} {s : St} {x : Nat} (h : backByte b = .ok (s, x, b')) : s = .ok := by
  unfold backByte at h
  split at h
  · cases h
  · split at h
    · simp only [Res.ok.injEq, Prod.mk.injEq] at h; exact h.1.symm
    · cases h

theorem readByte_data {b b' : Buf} {j x : Nat} {s : St} (h : readByte b j = .ok (s, x, b')) :
    (s ≠ .eob ∧ s ≠ .mark) ∧ (s = .ok → ∀ d, readByte b d = .ok (.ok, x, b')) := by
  unfold readByte at h ⊢
  split at h
  · simp only [Res.ok.injEq, Prod.mk.injEq] at h
    exact ⟨by rw [← h.1]; decide, by intro q; rw [← h.1] at q; cases q⟩
  · rename_i h1
    simp only [if_neg h1]
    split at h
    · rename_i h2
      simp only [if_pos h2]
      cases e : refill b with
      | none =>
        rw [e] at h
        simp only [Res.ok.injEq, Prod.mk.injEq] at h
        exact ⟨by rw [← h.1]; decide, by intro q; rw [← h.1] at q; cases q⟩
      | some b1 =>
        rw [e] at h
        dsimp only at h ⊢
        split at h
        · simp only [Res.ok.injEq, Prod.mk.injEq] at h
          exact ⟨by rw [← h.1]; decide, by intro q; rw [← h.1] at q; cases q⟩
        · rename_i h3
          have := takeByte_st h
          subst this
          exact ⟨by decide, fun _ d => by rw [if_neg h3]; exact h⟩
    · rename_i h2
      simp only [if_neg h2]
      have := takeByte_st h
      subst this
      exact ⟨by decide, fun _ d => h⟩

theorem readbkRefill_data {b b' : Buf} {j x : Nat} {s : St} (h : readbkRefill b j = .ok (s, x, b')) :
    (s ≠ .eob ∧ s ≠ .mark) ∧ (s = .ok → ∀ d, readbkRefill b d = .ok (.ok, x, b')) := by
  unfold readbkRefill at h ⊢
  split at h
  · simp only [Res.ok.injEq, Prod.mk.injEq] at h
    exact ⟨by rw [← h.1]; decide, by intro q; rw [← h.1] at q; cases q⟩
  · rename_i h1
    simp only [if_neg h1]
    split at h
    · split at h
      · simp only [Res.ok.injEq, Prod.mk.injEq] at h
        exact ⟨by rw [← h.1]; decide, by intro q; rw [← h.1] at q; cases q⟩
      · cases h
    · rename_i h2
      simp only [if_neg h2]
      split at h
      · rename_i h3
        have := backByte_st h
        subst this
        exact ⟨by decide, fun _ d => by rw [if_pos h3]; exact h⟩
      · rename_i h3
        have := backByte_st h
        subst this
        exact ⟨by decide, fun _ d => by rw [if_neg h3]; exact h⟩

theorem readbkByte_data {b b' : Buf} {j x : Nat} {s : St} (h : readbkByte b j = .ok (s, x, b')) :
    (s ≠ .eob ∧ s ≠ .mark) ∧ (s = .ok → ∀ d, readbkByte b d = .ok (.ok, x, b')) := by
  unfold readbkByte at h ⊢
  split at h
  · simp only [Res.ok.injEq, Prod.mk.injEq] at h
    exact ⟨by rw [← h.1]; decide, by intro q; rw [← h.1] at q; cases q⟩
  · rename_i h1
    simp only [if_neg h1]
    split at h
    · rename_i h2
      simp only [if_pos h2]
      split at h
      · rename_i h3
        simp only [if_pos h3]
        cases e : flush b with
        | none =>
          rw [e] at h
          simp only [Res.ok.injEq, Prod.mk.injEq] at h
          exact ⟨by rw [← h.1]; decide, by intro q; rw [← h.1] at q; cases q⟩
        | some b1 =>
          rw [e] at h
          exact readbkRefill_data h
      · rename_i h3
        simp only [if_neg h3]
        exact readbkRefill_data h
    · rename_i h2
      simp only [if_neg h2]
      have := backByte_st h
      subst this
      exact ⟨by decide, fun _ d => h⟩

/-- In the two record formats a frame does not depend on the caller's variable, and end of block leaves everything as
it is. -/
theorem readFrame_data {t t' : Tape} {j x : Nat} {s : St} (hf : IsTE t.fmt) (h : readFrame t j = .ok (s, x, t')) :
    (s = .ok → t'.fmt = t.fmt ∧ ∀ d, readFrame t d = .ok (.ok, x, t')) ∧ (s = .eob → ∀ d, readFrame t d = .ok (.eob, d, t)) ∧
    (s = .mark → ∀ d, readFrame t d = .ok (.mark, d, t)) := by
  have hf' : t.fmt = .tap ∨ t.fmt = .e11 := hf
  unfold readFrame at h ⊢
  split at h
  · simp only [Res.ok.injEq, Prod.mk.injEq] at h
    exact ⟨(by intro q; rw [← h.1] at q; cases q), (by intro q; rw [← h.1] at q; cases q), (by intro q; rw [← h.1] at q; cases q)⟩
  · rename_i h1
    simp only [if_neg h1]
    split at h
    · rename_i hm
      simp only [if_pos hm]
      simp only [Res.ok.injEq, Prod.mk.injEq] at h
      exact ⟨(by intro q; rw [← h.1] at q; cases q), (by intro q; rw [← h.1] at q; cases q), fun _ d => trivial⟩
    · rename_i h2
      simp only [if_neg h2, if_pos hf'] at h ⊢
      split at h
      · rename_i h3
        simp only [if_pos h3]
        split at h
        · rename_i h4
          simp only [if_pos h4]
          simp only [Res.ok.injEq, Prod.mk.injEq] at h
          exact ⟨(by intro q; rw [← h.1] at q; cases q), fun _ d => trivial, (by intro q; rw [← h.1] at q; cases q)⟩
        · rename_i h4
          simp only [if_neg h4]
          obtain ⟨⟨s1, x1, b1⟩, e, h5⟩ := bind_eq_ok h
          obtain ⟨k1, k2⟩ := readByte_data e
          simp only [Res.ok.injEq, Prod.mk.injEq] at h5
          obtain ⟨rfl, rfl, rfl⟩ := h5
          refine ⟨fun q => ⟨rfl, fun d => ?_⟩, fun q => absurd q k1.1, fun q => absurd q k1.2⟩
          rw [k2 q d]; rfl
      · rename_i h3
        simp only [if_neg h3]
        split at h
        · rename_i h3'
          simp only [if_pos h3']
          split at h
          · rename_i h4
            simp only [if_pos h4]
            simp only [Res.ok.injEq, Prod.mk.injEq] at h
            exact ⟨(by intro q; rw [← h.1] at q; cases q), fun _ d => trivial, (by intro q; rw [← h.1] at q; cases q)⟩
          · rename_i h4
            simp only [if_neg h4]
            obtain ⟨⟨s1, x1, b1⟩, e, h5⟩ := bind_eq_ok h
            obtain ⟨k1, k2⟩ := readbkByte_data e
            simp only [Res.ok.injEq, Prod.mk.injEq] at h5
            obtain ⟨rfl, rfl, rfl⟩ := h5
            refine ⟨fun q => ⟨rfl, fun d => ?_⟩, fun q => absurd q k1.1, fun q => absurd q k1.2⟩
            rw [k2 q d]; rfl
        · simp only [Res.ok.injEq, Prod.mk.injEq] at h
          exact ⟨(by intro q; rw [← h.1] at q; cases q), (by intro q; rw [← h.1] at q; cases q), (by intro q; rw [← h.1] at q; cases q)⟩

theorem frames_gives (junk : Nat) (bs : List Nat) : ∀ (t t2 : Tape), IsTE t.fmt →
    frames junk (bs.length + 1) t = .ok (framesOf bs (bs.length + 1), t2) → Gives bs t t2 := by
  induction bs with
  | nil =>
    intro t t2 hf h
    obtain ⟨⟨s, x, t1⟩, e, h⟩ := bind_eq_ok h
    simp only [frames, framesOf, List.length_nil, List.take_nil, List.map_nil, List.nil_append] at h
    obtain ⟨⟨l, t3⟩, e1, h⟩ := bind_eq_ok h
    simp only [Res.ok.injEq, Prod.mk.injEq] at h e1
    obtain ⟨h2, h3⟩ := h
    obtain ⟨rfl, rfl⟩ := e1
    have hs : s = .eob := by
      simp only [Nat.sub_zero, Nat.zero_add, List.replicate_one, List.cons.injEq, Prod.mk.injEq] at h2
      exact h2.1.1
    have k := (readFrame_data hf e).2.1 hs
    have := k junk
    rw [e] at this
    simp only [Res.ok.injEq, Prod.mk.injEq] at this
    exact ⟨this.2.2.symm.trans h3, k⟩
  | cons y bs ih =>
    intro t t2 hf h
    rw [List.length_cons] at h
    obtain ⟨⟨s, x, t1⟩, e, h⟩ := bind_eq_ok h
    obtain ⟨⟨l, t3⟩, e1, h⟩ := bind_eq_ok h
    simp only [Res.ok.injEq, Prod.mk.injEq] at h
    obtain ⟨h2, rfl⟩ := h
    have hfr : framesOf (y :: bs) (bs.length + 1 + 1) = (.ok, y) :: framesOf bs (bs.length + 1) := by
      simp [framesOf]
    rw [hfr] at h2
    simp only [List.cons.injEq, Prod.mk.injEq] at h2
    obtain ⟨⟨rfl, h3⟩, rfl⟩ := h2
    rw [if_pos rfl] at h3
    subst h3
    obtain ⟨k1, k2⟩ := (readFrame_data hf e).1 rfl
    exact ⟨t1, k2, ih t1 t3 (by rw [k1]; exact hf) e1⟩

/-- A record read in one of the two directions, frame by frame. -/
theorem readOp_gives {start : Tape → Res (St × Tape)} {fuel junk : Nat} {fin : Bool} {bs : List Nat} {t t' : Tape}
    (hs : ∀ r, start t = .ok r → r.2.fmt = t.fmt) (hf : IsTE t.fmt)
    (h : readOp start fuel junk (bs.length + 1) fin t = .ok (.read .ok (framesOf bs (bs.length + 1)) (some .ok), t')) :
    ∃ t1 t2, start t = .ok (.ok, t1) ∧ Gives bs t1 t2 ∧ finishRec fuel junk t2 = .ok (.ok, t') := by
  obtain ⟨⟨s, t1⟩, e, h⟩ := bind_eq_ok h
  dsimp only at h
  split at h
  · rename_i hs1
    subst hs1
    obtain ⟨⟨l, t2⟩, e1, h⟩ := bind_eq_ok h
    obtain ⟨⟨f, t3⟩, e2, h⟩ := bind_eq_ok h
    simp only [Res.ok.injEq, Prod.mk.injEq, Obs.read.injEq, Option.some.injEq] at h
    obtain ⟨⟨-, rfl, rfl⟩, rfl⟩ := h
    exact ⟨t1, t2, e, frames_gives junk bs t1 t2 (by rw [hs _ e]; exact hf) e1, e2⟩
  · rename_i hs1
    split at h
    · rename_i hs2
      subst hs2
      obtain ⟨⟨l, t2⟩, e1, h⟩ := bind_eq_ok h
      dsimp only at h
      split at h
      · obtain ⟨⟨f, t3⟩, e2, h⟩ := bind_eq_ok h
        simp at h
      · simp at h
    · simp only [Res.ok.injEq, Prod.mk.injEq, Obs.read.injEq] at h
      exact absurd h.1.1 hs1

theorem readForw_fmt {t : Tape} {r : St × Tape} (h : readForw t = .ok r) : r.2.fmt = t.fmt := by
  unfold readForw at h
  split at h
  · simp only [Res.ok.injEq] at h; rw [← h]
  · dsimp only at h
    split at h
    · simp only [Res.ok.injEq] at h; rw [← h]
    · split at h
      · obtain ⟨⟨s, l, b⟩, e, h⟩ := bind_eq_ok h
        dsimp only at h
        split at h
        · simp only [Res.ok.injEq] at h; rw [← h]
        · split at h
          · obtain ⟨⟨s, l, b⟩, e, h⟩ := bind_eq_ok h
            simp only [Res.ok.injEq] at h; rw [← h]
          · split at h <;> (simp only [Res.ok.injEq] at h; rw [← h])
      · split at h
        · obtain ⟨⟨s, l, b⟩, e, h⟩ := bind_eq_ok h
          dsimp only at h
          split at h
          · simp only [Res.ok.injEq] at h; rw [← h]
          · split at h
            · obtain ⟨⟨s, l, b⟩, e, h⟩ := bind_eq_ok h
              dsimp only at h
              split at h <;> (simp only [Res.ok.injEq] at h; rw [← h])
            · simp only [Res.ok.injEq] at h; rw [← h]
        · simp only [Res.ok.injEq] at h; rw [← h]

theorem readBack_fmt {t : Tape} {r : St × Tape} (h : readBack t = .ok r) : r.2.fmt = t.fmt := by
  unfold readBack at h
  split at h
  · simp only [Res.ok.injEq] at h; rw [← h]
  · dsimp only at h
    split at h
    · simp only [Res.ok.injEq] at h; rw [← h]
    · split at h
      · obtain ⟨⟨s, l, b⟩, e, h⟩ := bind_eq_ok h
        dsimp only at h
        split at h
        · simp only [Res.ok.injEq] at h; rw [← h]
        · split at h
          · simp only [Res.ok.injEq] at h; rw [← h]
          · obtain ⟨⟨s, x, b⟩, e, h⟩ := bind_eq_ok h
            dsimp only at h
            split at h <;> (simp only [Res.ok.injEq] at h; rw [← h])
      · split at h
        · obtain ⟨⟨s, l, b⟩, e, h⟩ := bind_eq_ok h
          dsimp only at h
          split at h
          · simp only [Res.ok.injEq] at h; rw [← h]
          · split at h
            · simp only [Res.ok.injEq] at h; rw [← h]
            · obtain ⟨⟨s, l, b⟩, e, h⟩ := bind_eq_ok h
              simp only [Res.ok.injEq] at h; rw [← h]
        · simp only [Res.ok.injEq] at h; rw [← h]

theorem finishRec_fuel {t : Tape} (hf : IsTE t.fmt) (fuel fuel' junk : Nat) : finishRec fuel junk t = finishRec fuel' junk t := by
  unfold finishRec
  split
  · rfl
  · have hf' : t.fmt = .tap ∨ t.fmt = .e11 := hf
    rw [if_pos hf', if_pos hf']

theorem readFrame_fmt {t t' : Tape} {d x : Nat} {s : St} (hf : IsTE t.fmt) (h : readFrame t d = .ok (s, x, t')) (hs : s = .ok ∨ s = .eob) : t'.fmt = t.fmt := by
  rcases hs with q | q
  · exact ((readFrame_data hf h).1 q).1
  · have := (readFrame_data hf h).2.1 q d
    rw [h] at this
    simp only [Res.ok.injEq, Prod.mk.injEq] at this
    rw [this.2.2]

theorem Gives.fmt {bs : List Nat} : ∀ {t t2 : Tape}, IsTE t.fmt → Gives bs t t2 → t2.fmt = t.fmt := by
  induction bs with
  | nil => intro t t2 _ h; rw [h.1]
  | cons x bs ih =>
    intro t t2 hf ⟨t1, e, h⟩
    have := readFrame_fmt hf (e 0) (.inl rfl)
    rw [ih (by rw [this]; exact hf) h, this]

theorem te_ne {f : Fmt} (h : IsTE f) : f ≠ .other ∧ f ≠ .p7b := by rcases h with q | q <;> subst q <;> decide

/-- A record in front of the head: what the calls of the control deliver. -/
theorem fwd_record {f : Fmt} {rg : Bool} {rest bs : List Nat} {t : Tape} {z : Z} {r : List Item} (hf : IsTE f) (h : Rel f rg rest t z)
    (hz : z.after = .data bs :: r) (junk : Nat) :
    ∃ t1 t2 t3 rest', readForw t = .ok (.ok, t1) ∧ Gives bs t1 t2 ∧ (∀ fuel, finishRec fuel junk t2 = .ok (.ok, t3)) ∧ t3.b.bot = false ∧
      Rel f rg rest' t3 { z with before := .data bs :: z.before, after := r, justRead := true } := by
  obtain ⟨fuel, t3, rest', e, k⟩ := step_refines junk (te_ne hf).1 (.fwd (bs.length + 1) true) h
    ⟨(by intro q; rw [hz] at q; cases q), fun q => absurd q (te_ne hf).2⟩
  have hsp : specStep f (.fwd (bs.length + 1) true) z = (.read .ok (framesOf bs (bs.length + 1)) (some .ok),
      { z with before := .data bs :: z.before, after := r, justRead := true }) := by
    simp only [specStep, hz]; rfl
  rw [hsp] at e k
  have hft : IsTE t.fmt := by rw [h.drive.fmt]; exact hf
  obtain ⟨t1, t2, e1, g, e2⟩ := readOp_gives (fun r hr => readForw_fmt hr) hft e
  have h1 := readForw_fmt e1
  have h2 := g.fmt (by rw [h1]; exact hft)
  refine ⟨t1, t2, t3, rest', e1, g, fun fuel' => ?_, ?_, k⟩
  · rw [finishRec_fuel (by rw [h2, h1]; exact hft) fuel' fuel]; exact e2
  · cases q : t3.b.bot with
    | false => rfl
    | true => exact absurd (k.bot q) (by simp)

theorem bwd_record {f : Fmt} {rg : Bool} {rest bs : List Nat} {t : Tape} {z : Z} {r : List Item} (hf : IsTE f) (h : Rel f rg rest t z)
    (hz : z.before = .data bs :: r) (junk : Nat) :
    ∃ t1 t2 t3 rest', readBack t = .ok (.ok, t1) ∧ Gives bs.reverse t1 t2 ∧ (∀ fuel, finishRec fuel junk t2 = .ok (.ok, t3)) ∧ t3.b.bot = false ∧
      Rel f rg rest' t3 { z with before := r, after := .data bs :: z.after, eot := false, justRead := false } := by
  obtain ⟨fuel, t3, rest', e, k⟩ := step_refines junk (te_ne hf).1 (.bwd (bs.reverse.length + 1) true) h trivial
  have hsp : specStep f (.bwd (bs.reverse.length + 1) true) z = (.read .ok (framesOf bs.reverse (bs.reverse.length + 1)) (some .ok),
      { z with before := r, after := .data bs :: z.after, eot := false, justRead := false }) := by
    simp only [specStep, hz]; rfl
  rw [hsp] at e k
  have hft : IsTE t.fmt := by rw [h.drive.fmt]; exact hf
  obtain ⟨t1, t2, e1, g, e2⟩ := readOp_gives (fun r hr => readBack_fmt hr) hft e
  have h1 := readBack_fmt e1
  have h2 := g.fmt (by rw [h1]; exact hft)
  refine ⟨t1, t2, t3, rest', e1, g, fun fuel' => ?_, ?_, k⟩
  · rw [finishRec_fuel (by rw [h2, h1]; exact hft) fuel' fuel]; exact e2
  · have hd := h.drive
    have hb : t.b.bot = false := by
      cases q : t.b.bot with
      | false => rfl
      | true => exact absurd (h.bot q) (by rw [hz]; simp)
    rw [hz, images_snoc, List.length_append] at hd
    obtain ⟨t4, e4, -, -, hb4, -⟩ := op_bwd (fuel + (image f (.data bs)).length + 1) junk (bs.reverse.length + 1) true (.data bs)
      (post := images f z.after ++ rest) hd (te_ne hf).1 (by simp) (h.fitB _ (by rw [hz]; simp)) hb (by omega)
    have := opStep_mono fuel (fuel + (image f (.data bs)).length + 1) junk _ t _ (by omega) e
    rw [this] at e4
    simp only [Res.ok.injEq, Prod.mk.injEq] at e4
    rw [e4.2]; exact hb4

/-- A tape mark met in one of the two directions. -/
theorem readOp_mark {start : Tape → Res (St × Tape)} {fuel fuel' junk : Nat} {t t0 t3 : Tape}
    (hs : ∀ r, start t = .ok r → r.2.fmt = t.fmt) (hf : IsTE t.fmt)
    (h : readOp start fuel junk 0 false t = .ok (.read .mark [] none, t0))
    (h' : readOp start fuel' junk 1 true t = .ok (.read .mark [(.mark, 0)] (some .ok), t3)) :
    start t = .ok (.mark, t0) ∧ (∀ d, readFrame t0 d = .ok (.mark, d, t0)) ∧ ∀ fuel, finishRec fuel junk t0 = .ok (.ok, t3) := by
  obtain ⟨⟨s, t1⟩, e1, e⟩ := bind_eq_ok h
  have hm : s = .mark := by
    dsimp only at e
    split at e
    · rename_i q
      obtain ⟨⟨l, t2⟩, e2, e⟩ := bind_eq_ok e
      obtain ⟨⟨g, t3⟩, e3, e⟩ := bind_eq_ok e
      simp at e
    · split at e
      · assumption
      · simp only [Res.ok.injEq, Prod.mk.injEq, Obs.read.injEq] at e; exact e.1.1
  subst hm
  dsimp only at e
  rw [if_neg (by decide), if_pos rfl] at e
  obtain ⟨⟨l, t2⟩, e2, e⟩ := bind_eq_ok e
  simp only [frames, Res.ok.injEq, Prod.mk.injEq] at e2
  obtain ⟨rfl, rfl⟩ := e2
  simp only [Bool.false_eq_true, if_false, Res.ok.injEq, Prod.mk.injEq] at e
  obtain ⟨-, rfl⟩ := e
  obtain ⟨⟨s', t1'⟩, e1', e'⟩ := bind_eq_ok h'
  rw [e1] at e1'
  simp only [Res.ok.injEq, Prod.mk.injEq] at e1'
  obtain ⟨rfl, rfl⟩ := e1'
  dsimp only at e'
  rw [if_neg (by decide), if_pos rfl] at e'
  obtain ⟨⟨l, t2⟩, e2, e'⟩ := bind_eq_ok e'
  obtain ⟨⟨s2, x2, t2'⟩, e3, e2⟩ := bind_eq_ok e2
  obtain ⟨⟨l3, t3'⟩, e4, e2⟩ := bind_eq_ok e2
  simp only [frames, Res.ok.injEq, Prod.mk.injEq] at e4 e2
  obtain ⟨rfl, rfl⟩ := e4
  obtain ⟨rfl, rfl⟩ := e2
  simp only [if_true] at e'
  obtain ⟨⟨g, t4⟩, e5, e'⟩ := bind_eq_ok e'
  simp only [Res.ok.injEq, Prod.mk.injEq, Obs.read.injEq, Option.some.injEq, List.cons.injEq] at e'
  obtain ⟨⟨-, ⟨⟨rfl, -⟩, -⟩, rfl⟩, rfl⟩ := e'
  have h1 := hs _ e1
  have hd := (readFrame_data (by rw [h1]; exact hf) e3).2.2 rfl
  have := hd junk
  rw [e3] at this
  simp only [Res.ok.injEq, Prod.mk.injEq] at this
  obtain ⟨-, -, rfl⟩ := this
  exact ⟨e1, hd, fun fuel'' => by rw [finishRec_fuel (by rw [h1]; exact hf) fuel'' fuel']; exact e5⟩

/-- A tape mark in front of the head. -/
theorem fwd_mark {f : Fmt} {rg : Bool} {rest : List Nat} {t : Tape} {z : Z} {r : List Item} (hf : IsTE f) (h : Rel f rg rest t z)
    (hz : z.after = .mark :: r) (junk : Nat) :
    ∃ t1 t3 rest' rest'', readForw t = .ok (.mark, t1) ∧ (∀ d, readFrame t1 d = .ok (.mark, d, t1)) ∧ (∀ fuel, finishRec fuel junk t1 = .ok (.ok, t3)) ∧
      Rel f rg rest' t1 { z with before := .mark :: z.before, after := r, justRead := true } ∧
      Rel f rg rest'' t3 { z with before := .mark :: z.before, after := r, justRead := true } := by
  have hft : IsTE t.fmt := by rw [h.drive.fmt]; exact hf
  have hp : ∀ k fin, OpPre f rg (.fwd k fin) z := fun k fin => ⟨(by intro q; rw [hz] at q; cases q), fun q => absurd q (te_ne hf).2⟩
  have hsp : ∀ k fin, specStep f (.fwd k fin) z = (.read .mark (List.replicate k (.mark, 0)) (if fin then some .ok else none),
      { z with before := .mark :: z.before, after := r, justRead := true }) := by
    intro k fin; simp only [specStep, hz]; rfl
  obtain ⟨fuel, t0, rest', e, k⟩ := step_refines junk (te_ne hf).1 (.fwd 0 false) h (hp _ _)
  obtain ⟨fuel', t3, rest'', e', k'⟩ := step_refines junk (te_ne hf).1 (.fwd 1 true) h (hp _ _)
  rw [hsp] at e k e' k'
  obtain ⟨a, b, c⟩ := readOp_mark (fun r hr => readForw_fmt hr) hft e e'
  exact ⟨t0, t3, rest', rest'', a, b, c, k, k'⟩

/-- A tape mark behind the head. -/
theorem bwd_mark {f : Fmt} {rg : Bool} {rest : List Nat} {t : Tape} {z : Z} {r : List Item} (hf : IsTE f) (h : Rel f rg rest t z)
    (hz : z.before = .mark :: r) (junk : Nat) :
    ∃ t1 t3 rest' rest'', readBack t = .ok (.mark, t1) ∧ (∀ d, readFrame t1 d = .ok (.mark, d, t1)) ∧ (∀ fuel, finishRec fuel junk t1 = .ok (.ok, t3)) ∧
      Rel f rg rest' t1 { z with before := r, after := .mark :: z.after, eot := false, justRead := false } ∧
      Rel f rg rest'' t3 { z with before := r, after := .mark :: z.after, eot := false, justRead := false } := by
  have hft : IsTE t.fmt := by rw [h.drive.fmt]; exact hf
  have hsp : ∀ k fin, specStep f (.bwd k fin) z = (.read .mark (List.replicate k (.mark, 0)) (if fin then some .ok else none),
      { z with before := r, after := .mark :: z.after, eot := false, justRead := false }) := by
    intro k fin; simp only [specStep, hz]; rfl
  obtain ⟨fuel, t0, rest', e, k⟩ := step_refines junk (te_ne hf).1 (.bwd 0 false) h trivial
  obtain ⟨fuel', t3, rest'', e', k'⟩ := step_refines junk (te_ne hf).1 (.bwd 1 true) h trivial
  rw [hsp] at e k e' k'
  obtain ⟨a, b, c⟩ := readOp_mark (fun r hr => readBack_fmt hr) hft e e'
  exact ⟨t0, t3, rest', rest'', a, b, c, k, k'⟩

/-- Backward with nothing behind the head. -/
theorem bwd_none {f : Fmt} {rg : Bool} {rest : List Nat} {t : Tape} {z : Z} (hf : IsTE f) (h : Rel f rg rest t z) (hz : z.before = []) :
    ∃ t1 rest', readBack t = .ok (.bot, t1) ∧ Rel f rg rest' t1 { z with eot := false, justRead := false } := by
  obtain ⟨fuel, t0, rest', e, k⟩ := step_refines 0 (te_ne hf).1 (.bwd 0 false) h trivial
  have hsp : specStep f (.bwd 0 false) z = (.read .bot [] none, { z with eot := false, justRead := false }) := by
    simp only [specStep, hz]
  rw [hsp] at e k
  obtain ⟨⟨s, t1⟩, e1, e⟩ := bind_eq_ok e
  have hm : s = .bot ∧ t1 = t0 := by
    dsimp only at e
    split at e
    · obtain ⟨⟨l, t2⟩, e2, e⟩ := bind_eq_ok e
      obtain ⟨⟨g, t3⟩, e3, e⟩ := bind_eq_ok e
      simp at e
    · split at e
      · rename_i q
        obtain ⟨⟨l, t2⟩, e2, e⟩ := bind_eq_ok e
        simp [q] at e
      · simp only [Res.ok.injEq, Prod.mk.injEq, Obs.read.injEq] at e; exact ⟨e.1.1, e.2⟩
  obtain ⟨rfl, rfl⟩ := hm
  exact ⟨t1, rest', e1, k⟩

/-- A tape mark is written. -/
theorem put_mark {f : Fmt} {rest : List Nat} {t : Tape} {z : Z} (hf : IsTE f) (h : Rel f true rest t z) (hz : z.justRead = false) :
    ∃ t1 rest', writeMark t = .ok (.ok, t1) ∧
      Rel f true rest' t1 { before := .mark :: z.before, after := [], isEnd := z.after.isEmpty && z.isEnd, eot := z.eot, justRead := false } := by
  obtain ⟨fuel, t0, rest', e, k⟩ := step_refines 0 (te_ne hf).1 (.write .mark) h ⟨rfl, trivial, hz⟩
  obtain ⟨⟨s, t1⟩, e1, e⟩ := bind_eq_ok e
  simp only [specStep, wroteAll, Res.ok.injEq, Prod.mk.injEq, Obs.wrote.injEq, List.cons.injEq] at e
  obtain ⟨⟨rfl, -⟩, rfl⟩ := e
  exact ⟨t1, rest', e1, k⟩

theorem rewindLoop_end (n : Nat) : ∀ (fuel : Nat) (t t' : Tape), t.b.opened = true → rewindLoop n fuel t = .ok t' →
    t' = { t with b := { t.b with bot := true }, posFrame := 0 } := by
  intro fuel
  induction fuel with
  | zero => intro t t' _ h; cases h
  | succ k ih =>
    intro t t' ho h
    unfold rewindLoop rewindFrames at h
    rw [if_neg (by rw [ho]; decide)] at h
    by_cases q : t.posFrame < n
    · rw [if_pos q] at h
      simp only [Res.ok.injEq] at h
      exact h.symm
    · rw [if_neg q] at h
      exact ih { t with posFrame := t.posFrame - n } _ ho h

/-- The tape at load point after a rewind in steps of whatever size. -/
theorem rewound_rel {f : Fmt} {rg : Bool} {rest : List Nat} {t : Tape} {z : Z} (hf : IsTE f) (h : Rel f rg rest t z) (hz : z.eot = false) :
    ∃ t1 rest', startRewind t = (.ok, t1) ∧ t1.b.opened = true ∧
      Rel f rg rest' { t1 with b := { t1.b with bot := true }, posFrame := 0 } { z with before := [], after := z.before.reverse ++ z.after, justRead := false } := by
  obtain ⟨fuel, t0, rest', e, k⟩ := step_refines 0 (te_ne hf).1 (.rewind 1) h ⟨hz, by decide⟩
  obtain ⟨t2, e2, e⟩ := bind_eq_ok e
  simp only [specStep, Res.ok.injEq, Prod.mk.injEq, Obs.rewound.injEq] at e
  obtain ⟨⟨h1, -⟩, rfl⟩ := e
  have ho : (startRewind t).2.b.opened = true := by
    have := h.drive.rep.opened
    unfold startRewind flush
    split
    · split
      · exact this
      · rename_i b hb
        split at hb
        · simp only [Option.some.injEq] at hb; rw [← hb]; exact this
        · cases hb
    · exact this
  have := rewindLoop_end 1 fuel _ _ ho e2
  subst this
  exact ⟨(startRewind t).2, rest', Prod.ext h1 rfl, ho, k⟩

end Verif.Mt
