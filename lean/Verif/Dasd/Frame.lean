import Verif.Dasd.Format
/-!
# What each drive operation can change
-/
namespace Verif.Dasd
open Verif.Card (Res look)

theorem bind_inv {α β : Type} {x : Res α} {f : α → Res β} {y : β} (h : x.bind f = .ok y) : ∃ a, x = .ok a ∧ f a = .ok y := by
  cases x with
  | ok a => exact ⟨a, rfl, h⟩
  | oob => cases h
  | fuel => cases h

/-- Everything about the cylinder in the buffer and the file. -/
def fr (s : S) : DiskType × Nat × List Nat × Nat × Nat × Option (List Nat) := (s.ty, s.tsize, s.file, s.fpos, s.cyl, s.cbuf)

/-- The buffer, the file, the changed mark and the byte clock are as before. -/
abbrev Keeps (s s' : S) : Prop := fr s' = fr s ∧ (s'.dirty, s'.step) = (s.dirty, s.step)

theorem Keeps.trans {a b c : S} (h : Keeps a b) (g : Keeps b c) : Keeps a c := ⟨g.1.trans h.1, g.2.trans h.2⟩

theorem lengths_fr {s s' : S} (h : lengths s = .ok s') : Keeps s s' := by
  obtain ⟨_, -, h⟩ := bind_inv h
  obtain ⟨_, -, h⟩ := bind_inv h
  obtain ⟨_, -, h⟩ := bind_inv h
  have := Res.ok.inj h; subst this; exact ⟨rfl, rfl⟩

theorem ckx_fr (s : S) (i v : Nat) : Keeps s (ckx s i v) := by
  unfold ckx; split <;> exact ⟨rfl, rfl⟩

theorem ckInitU_fr (s : S) : Keeps s (ckInitU s) := by
  unfold ckInitU; split <;> exact ⟨rfl, rfl⟩

theorem amRet_fr (s : S) (io : Io) : Keeps s (amRet s io).1 := by
  unfold amRet; split <;> exact ⟨rfl, rfl⟩

theorem syncIn_fr (s : S) (io : Io) (m : Nat) : Keeps s (syncIn s io m).1 := by
  unfold syncIn; split <;> exact ⟨rfl, rfl⟩

theorem wrap_fr (s : S) (io : Io) : Keeps s (wrap s io).1 := by
  unfold wrap; split <;> exact ⟨rfl, rfl⟩

theorem rdSwitch_fr {s : S} {c da : Nat} {io : Io} {x : Sw} (h : rdSwitch s c da io = .ok x) :
    Keeps s x.1 := by
  unfold rdSwitch at h
  split at h
  · unfold rdIndex at h
    split at h <;> (have := Res.ok.inj h; subst this; exact ⟨rfl, rfl⟩)
  · unfold rdHa at h
    repeat' split at h
    · obtain ⟨v, -, h⟩ := bind_inv h
      have := Res.ok.inj h; subst this; exact ckx_fr s _ _
    all_goals (have := Res.ok.inj h; subst this; first | exact ⟨rfl, rfl⟩ | (simp only; split <;> exact ⟨rfl, rfl⟩))
  · unfold rdGap1 at h
    split at h
    · obtain ⟨e, -, h⟩ := bind_inv h
      split at h
      · have := Res.ok.inj h; subst this; exact ⟨rfl, rfl⟩
      · have := Res.ok.inj h; subst this
        have k := syncIn_fr (ckInit { s with count := 0, state := .cnt0 }) io 0x3
        exact k
    · have := Res.ok.inj h; subst this; exact ⟨rfl, rfl⟩
  · unfold rdCnt0 at h
    obtain ⟨y, h1, h2⟩ := bind_inv h
    have := Res.ok.inj h2; subst this
    simp only [amRet]
    repeat' split at h1
    · obtain ⟨e, -, h1⟩ := bind_inv h1
      obtain ⟨s1, h3, h1⟩ := bind_inv h1
      have := Res.ok.inj h1; subst this
      split at h3
      · have := Res.ok.inj h3; subst this; exact ⟨rfl, rfl⟩
      · have k := lengths_fr h3; exact k
    · obtain ⟨v, -, h1⟩ := bind_inv h1
      have := Res.ok.inj h1; subst this; exact ckx_fr s _ _
    all_goals (have := Res.ok.inj h1; subst this; first | exact ⟨rfl, rfl⟩ | (simp only; split <;> exact ⟨rfl, rfl⟩))
  · unfold rdAm at h
    by_cases c0 : c = s.ty.g2
    · rw [if_pos c0] at h
      obtain ⟨e, -, h⟩ := bind_inv h
      cases e <;> (have := Res.ok.inj h; subst this; exact ⟨rfl, rfl⟩)
    rw [if_neg c0] at h
    split at h <;> (have := Res.ok.inj h; subst this; exact ⟨rfl, rfl⟩)
  · unfold rdCnt1 at h
    obtain ⟨y, h1, h2⟩ := bind_inv h
    have := Res.ok.inj h2; subst this
    simp only [amRet]
    repeat' split at h1
    · obtain ⟨e, -, h1⟩ := bind_inv h1
      obtain ⟨s1, h3, h1⟩ := bind_inv h1
      obtain ⟨v, -, h1⟩ := bind_inv h1
      have := Res.ok.inj h1; subst this
      split at h3
      · have := Res.ok.inj h3; subst this; exact ⟨rfl, rfl⟩
      · have k := lengths_fr h3; exact k
    · obtain ⟨v, -, h1⟩ := bind_inv h1
      have := Res.ok.inj h1; subst this; exact ⟨rfl, rfl⟩
    · obtain ⟨v, -, h1⟩ := bind_inv h1
      have := Res.ok.inj h1; subst this; exact ckx_fr s _ _
    all_goals (have := Res.ok.inj h1; subst this; first | exact ⟨rfl, rfl⟩ | (simp only; split <;> exact ⟨rfl, rfl⟩))
  · unfold rdGap at h
    split at h
    · have := Res.ok.inj h; subst this
      have k := syncIn_fr (ckInit { s with count := 0, state := .key }) io 0x02
      exact k
    · have := Res.ok.inj h; subst this; exact ⟨rfl, rfl⟩
  · unfold rdKey at h
    obtain ⟨y, h1, h2⟩ := bind_inv h
    have := Res.ok.inj h2; subst this
    simp only [amRet]
    repeat' split at h1
    · obtain ⟨v, -, h1⟩ := bind_inv h1
      have := Res.ok.inj h1; subst this; exact ckx_fr s _ _
    all_goals (have := Res.ok.inj h1; subst this; first | exact ⟨rfl, rfl⟩ | (simp only; split <;> exact ⟨rfl, rfl⟩))
  · unfold rdGap at h
    split at h
    · have := Res.ok.inj h; subst this
      have k := syncIn_fr (ckInit { s with count := 0, state := .data }) io 0x01
      exact k
    · have := Res.ok.inj h; subst this; exact ⟨rfl, rfl⟩
  · unfold rdData at h
    obtain ⟨y, h1, h2⟩ := bind_inv h
    have := Res.ok.inj h2; subst this
    simp only [amRet]
    repeat' split at h1
    · obtain ⟨v, -, h1⟩ := bind_inv h1
      have := Res.ok.inj h1; subst this; exact ckx_fr s _ _
    all_goals (have := Res.ok.inj h1; subst this; first | exact ⟨rfl, rfl⟩ | (simp only; split <;> exact ⟨rfl, rfl⟩))
  · have := Res.ok.inj h; subst this
    have k := wrap_fr { s with count := 0, klen := 0, dlen := 0 } io
    exact k
  · have := Res.ok.inj h; subst this; exact ⟨rfl, rfl⟩

/-- Reading a byte changes neither the buffer nor the file, and marks the buffer as changed when the byte is taken. -/
theorem readByte_fr {s s' : S} {io io' : Io} {r : Bool} (h : readByte s io = .ok (s', r, io')) :
    fr s' = fr s ∧ (s'.dirty = true ∨ (s.step < s.ty.rate ∧ s'.dirty = s.dirty)) := by
  unfold readByte at h
  split at h
  · next hs => cases h; exact ⟨rfl, Or.inr ⟨hs, rfl⟩⟩
  · obtain ⟨⟨s2, o, io2⟩, h1, h2⟩ := bind_inv h
    have h3 := rdSwitch_fr h1
    have h4 : fr s2 = fr s ∧ s2.dirty = true := by
      refine ⟨h3.1.trans ?_, congrArg Prod.fst h3.2⟩
      unfold rdIx
      split <;> rfl
    cases o with
    | some r' => cases h2; exact ⟨h4.1, Or.inl h4.2⟩
    | none =>
      have k := wrap_fr s2 io2
      cases h2
      exact ⟨k.1.trans h4.1, Or.inl ((congrArg Prod.fst k.2).trans h4.2)⟩

theorem updStep_fr {s s' : S} (h : updStep s = .ok s') : Keeps s s' := by
  unfold updStep at h
  simp only at h
  split at h
  · split at h
    · have := Res.ok.inj h; subst this; exact ckInitU_fr _
    · have := Res.ok.inj h; subst this; exact ⟨rfl, rfl⟩
  · repeat' split at h
    · obtain ⟨v, -, h⟩ := bind_inv h
      have := Res.ok.inj h; subst this; exact ckx_fr s _ _
    all_goals (have := Res.ok.inj h; subst this; exact ⟨rfl, rfl⟩)
  · split at h
    · have := Res.ok.inj h; subst this; exact ⟨rfl, rfl⟩
    · have := Res.ok.inj h; subst this; exact ckInitU_fr _
  · repeat' split at h
    · obtain ⟨e, -, h⟩ := bind_inv h
      split at h
      · have := Res.ok.inj h; subst this; exact ⟨rfl, rfl⟩
      · obtain ⟨s1, h3, h⟩ := bind_inv h
        have := Res.ok.inj h; subst this; have k := lengths_fr h3; exact k
    · obtain ⟨v, -, h⟩ := bind_inv h
      have := Res.ok.inj h; subst this; exact ckx_fr s _ _
    all_goals (have := Res.ok.inj h; subst this; exact ⟨rfl, rfl⟩)
  · split at h
    · have := Res.ok.inj h; subst this; exact ⟨rfl, rfl⟩
    · obtain ⟨e, -, h⟩ := bind_inv h
      split at h <;> (have := Res.ok.inj h; subst this; exact ⟨rfl, rfl⟩)
  · repeat' split at h
    · obtain ⟨e, -, h⟩ := bind_inv h
      split at h
      · have := Res.ok.inj h; subst this; exact ⟨rfl, rfl⟩
      · obtain ⟨s1, h3, h⟩ := bind_inv h
        have := Res.ok.inj h; subst this; have k := lengths_fr h3; exact k
    · obtain ⟨v, -, h⟩ := bind_inv h
      have := Res.ok.inj h; subst this; exact ckx_fr s _ _
    all_goals (have := Res.ok.inj h; subst this; exact ⟨rfl, rfl⟩)
  · split at h
    · have := Res.ok.inj h; subst this; exact ⟨rfl, rfl⟩
    · have := Res.ok.inj h; subst this; exact ckInitU_fr _
  · obtain ⟨s1, h1, h2⟩ := bind_inv h
    have e1 : Keeps s s1 := by
      split at h1
      · obtain ⟨v, -, h1⟩ := bind_inv h1
        have := Res.ok.inj h1; subst this; exact ckx_fr s _ _
      · have := Res.ok.inj h1; subst this; exact ⟨rfl, rfl⟩
    split at h2
    · have := Res.ok.inj h2; subst this
      exact ⟨(ckInitU_fr _).1.trans e1.1, (ckInitU_fr _).2.trans e1.2⟩
    · have := Res.ok.inj h2; subst this; exact e1
  · split at h <;> (have := Res.ok.inj h; subst this; exact ⟨rfl, rfl⟩)
  · obtain ⟨s1, h1, h2⟩ := bind_inv h
    have e1 : Keeps s s1 := by
      split at h1
      · obtain ⟨v, -, h1⟩ := bind_inv h1
        have := Res.ok.inj h1; subst this; exact ckx_fr s _ _
      · have := Res.ok.inj h1; subst this; exact ⟨rfl, rfl⟩
    split at h2
    · have := Res.ok.inj h2; subst this
      exact ⟨(ckInitU_fr _).1.trans e1.1, (ckInitU_fr _).2.trans e1.2⟩
    · have := Res.ok.inj h2; subst this; exact e1
  · have := Res.ok.inj h; subst this; exact ⟨rfl, rfl⟩
  · have := Res.ok.inj h; subst this; exact ⟨rfl, rfl⟩

theorem updLoop_fr : ∀ {n : Nat} {s s' : S}, updLoop n s = .ok s' → Keeps s s' := by
  intro n
  induction n with
  | zero => intro s s' h; cases h; exact ⟨rfl, rfl⟩
  | succ n ih =>
    intro s s' h
    obtain ⟨s1, h1, h2⟩ := bind_inv h
    have a := updStep_fr h1
    have b := ih h2
    exact ⟨b.1.trans a.1, b.2.trans a.2⟩

theorem update_fr {s s' : S} (h : update s = .ok s') : Keeps s s' := by
  obtain ⟨s1, h1, h2⟩ := bind_inv h
  have a := updLoop_fr h1
  have := Res.ok.inj h2; subst this
  exact ⟨a.1, a.2⟩

theorem headAdvance_fr (s : S) : Keeps s (headAdvance s) := by
  unfold headAdvance; simp only; split <;> exact ⟨rfl, rfl⟩

theorem ite_fr {s a b : S} {p : Prop} [Decidable p] (ha : Keeps s a) (hb : Keeps s b) : Keeps s (if p then a else b) := by
  split
  · exact ha
  · exact hb

theorem control_fr {s s' : S} {ft fc : Nat} (h : control s ft fc = .ok s') : Keeps s s' := by
  unfold control at h
  obtain ⟨s2, h2, h1⟩ := bind_inv h
  have e2 : Keeps s s2 := by
    split at h2
    · exact update_fr h2
    · cases h2; exact ⟨rfl, rfl⟩
  obtain ⟨s3, h3, h1⟩ := bind_inv h1
  have e3 : Keeps s2 s3 := by
    split at h3
    · obtain ⟨s4, h4, h3⟩ := bind_inv h3
      have e4 : Keeps s2 s4 := by
        split at h4
        · have k := update_fr h4; exact k
        · cases h4; exact ⟨rfl, rfl⟩
      have := Res.ok.inj h3; subst this
      exact e4.trans (ite_fr (ite_fr ⟨rfl, rfl⟩ ⟨rfl, rfl⟩) ⟨rfl, rfl⟩)
    · cases h3; exact ⟨rfl, rfl⟩
  refine (e2.trans e3).trans ?_
  clear h h2 h3 e2 e3
  have := Res.ok.inj h1; subst this
  have k1 : Keeps s3 (ctlSeek s3 fc) := ite_fr ⟨rfl, rfl⟩ ⟨rfl, rfl⟩
  have k2 : Keeps _ (ctlReset (ctlSeek s3 fc) fc) := k1.trans (ite_fr ⟨rfl, rfl⟩ ⟨rfl, rfl⟩)
  have k3 : Keeps _ (ctlErase (ctlReset (ctlSeek s3 fc) fc) fc) := k2.trans (ite_fr ⟨rfl, rfl⟩ ⟨rfl, rfl⟩)
  have k4 : Keeps _ (ctlRecal (ctlErase (ctlReset (ctlSeek s3 fc) fc) fc) fc) := k3.trans (ite_fr ⟨rfl, rfl⟩ ⟨rfl, rfl⟩)
  have k5 : ∀ t, Keeps t (ctlGate (ctlHead t ft fc) fc) := fun t =>
    (show Keeps t (ctlHead t ft fc) from ite_fr (ite_fr (headAdvance_fr t) ⟨rfl, rfl⟩)
      (ite_fr (ite_fr ⟨rfl, rfl⟩ (headAdvance_fr t)) ⟨rfl, rfl⟩)).trans ⟨rfl, rfl⟩
  exact k4.trans (k5 _)

/-- The tags of the control unit change neither the buffer nor the file. -/
theorem setTags_fr {s s' : S} {ft fc : Nat} (h : setTags s ft fc = .ok s') : Keeps s s' := by
  unfold setTags at h
  split at h
  · cases h; exact ⟨rfl, rfl⟩
  · obtain ⟨s1, h1, h2⟩ := bind_inv h
    have e1 : Keeps s s1 := by
      split at h1
      · exact control_fr h1
      · cases h1; exact ⟨rfl, rfl⟩
    have := Res.ok.inj h2; subst this
    refine Keeps.trans e1 ?_
    have k1 : Keeps s1 (tagCyl s1 ft fc) := ite_fr ⟨rfl, rfl⟩ ⟨rfl, rfl⟩
    have kd : ∀ t, Keeps t (headDir t fc) := fun t => ite_fr ⟨rfl, rfl⟩ (ite_fr ⟨rfl, rfl⟩ ⟨rfl, rfl⟩)
    have k2 : Keeps s1 (tagHead (tagCyl s1 ft fc) ft fc) := k1.trans (ite_fr (kd _) ⟨rfl, rfl⟩)
    exact k2.trans (ite_fr ⟨rfl, rfl⟩ ⟨rfl, rfl⟩)

theorem stepDisk_fr (s : S) : fr (stepDisk s).1 = fr s ∧ (stepDisk s).1.dirty = s.dirty := by
  unfold stepDisk
  split
  · exact ⟨rfl, rfl⟩
  · simp only; split <;> exact ⟨rfl, rfl⟩

/-! ### Writing -/

/-- Writing keeps everything but the bytes of the buffer. -/
structure WKeeps (s s' : S) : Prop where
  ty : s'.ty = s.ty
  tsize : s'.tsize = s.tsize
  file : s'.file = s.file
  fpos : s'.fpos = s.fpos
  cyl : s'.cyl = s.cyl
  ncyl : s'.ncyl = s.ncyl
  dirty : s'.dirty = s.dirty
  buf : s'.cbuf.map List.length = s.cbuf.map List.length

theorem WKeeps.trans {a b c : S} (h : WKeeps a b) (g : WKeeps b c) : WKeeps a c :=
  ⟨g.1.trans h.1, g.2.trans h.2, g.3.trans h.3, g.4.trans h.4, g.5.trans h.5, g.6.trans h.6, g.7.trans h.7, g.8.trans h.8⟩

theorem wk {s s' : S} (h : (s'.ty, s'.tsize, s'.file, s'.fpos, s'.cyl, s'.ncyl, s'.dirty, s'.cbuf)
    = (s.ty, s.tsize, s.file, s.fpos, s.cyl, s.ncyl, s.dirty, s.cbuf)) : WKeeps s s' := by
  simp only [Prod.mk.injEq] at h
  obtain ⟨a, b, c, d, e, f, g, i⟩ := h
  exact ⟨a, b, c, d, e, f, g, by rw [i]⟩

theorem wkL {s b c : S} (g : WKeeps b c) (h : (b.ty, b.tsize, b.file, b.fpos, b.cyl, b.ncyl, b.dirty, b.cbuf)
    = (s.ty, s.tsize, s.file, s.fpos, s.cyl, s.ncyl, s.dirty, s.cbuf)) : WKeeps s c := (wk h).trans g

theorem ite_wk {s a b : S} {p : Prop} [Decidable p] (ha : WKeeps s a) (hb : WKeeps s b) : WKeeps s (if p then a else b) := by
  split
  · exact ha
  · exact hb

theorem setB_wk {s s' : S} {i v : Nat} (h : setB s i v = .ok s') : WKeeps s s' := by
  unfold setB at h
  split at h
  · cases h
  · next b hb =>
    split at h
    · have := Res.ok.inj h; subst this
      exact ⟨rfl, rfl, rfl, rfl, rfl, rfl, rfl, by rw [hb]; simp⟩
    · cases h

theorem setBs_wk : ∀ {vs : List Nat} {s s' : S} {i : Nat}, setBs s i vs = .ok s' → WKeeps s s' := by
  intro vs
  induction vs with
  | nil => intro s s' i h; cases h; exact wk rfl
  | cons v vs ih =>
    intro s s' i h
    obtain ⟨t, h1, h2⟩ := bind_inv h
    exact (setB_wk h1).trans (ih h2)

theorem ckx_wk (s : S) (i v : Nat) : WKeeps s (ckx s i v) := ite_wk (wk rfl) (wk rfl)

theorem setck {s b u : S} {i v j w : Nat} (g : setB b i v = .ok u)
    (h : (b.ty, b.tsize, b.file, b.fpos, b.cyl, b.ncyl, b.dirty, b.cbuf)
    = (s.ty, s.tsize, s.file, s.fpos, s.cyl, s.ncyl, s.dirty, s.cbuf)) : WKeeps s (ckx u j w) :=
  (wkL (setB_wk g) h).trans (ckx_wk u j w)

theorem lengths_wk {s s' : S} (h : lengths s = .ok s') : WKeeps s s' := by
  obtain ⟨_, -, h⟩ := bind_inv h
  obtain ⟨_, -, h⟩ := bind_inv h
  obtain ⟨_, -, h⟩ := bind_inv h
  have := Res.ok.inj h; subst this; exact wk rfl

theorem overrun_wk {s s' : S} (h : overrun s = .ok s') : WKeeps s s' :=
  wkL (setBs_wk h) rfl

theorem wrSwitch_wk {s : S} {c da d : Nat} {am : Bool} {x : S × Nat} (h : wrSwitch s c da d am = .ok x) : WKeeps s x.1 := by
  have lift : ∀ {r : Res S}, (∀ t, r = .ok t → WKeeps s t) → (r.bind fun s => .ok (s, d)) = .ok x → WKeeps s x.1 := by
    intro r hr h
    obtain ⟨t, h1, h2⟩ := bind_inv h
    have := Res.ok.inj h2; subst this
    exact hr t h1
  unfold wrSwitch at h
  split at h
  · refine lift (fun t ht => ?_) h
    have := Res.ok.inj ht; subst this
    exact ite_wk (wk rfl) (wk rfl)
  · refine lift (fun t ht => ?_) h
    unfold wrHa at ht
    repeat' split at ht
    · obtain ⟨u, h1, h2⟩ := bind_inv ht
      have := Res.ok.inj h2; subst this
      exact setck h1 rfl
    all_goals (have := Res.ok.inj ht; subst this; exact wk rfl)
  · refine lift (fun t ht => ?_) h
    obtain ⟨y, h1, h2⟩ := bind_inv ht
    have e1 : WKeeps s y.1 := by
      split at h1
      · obtain ⟨u, h3, h1⟩ := bind_inv h1
        have := Res.ok.inj h1; subst this
        exact overrun_wk h3
      · have := Res.ok.inj h1; subst this
        exact wk rfl
    refine e1.trans ?_
    by_cases hd : d = if is14 s then 0xb else 0xe
    · rw [if_pos hd] at h2; exact wkL (setBs_wk h2) rfl
    · rw [if_neg hd] at h2; exact setBs_wk h2
  · unfold wrCnt0 at h
    by_cases c0 : c = 0
    · rw [if_pos c0] at h
      have := Res.ok.inj h; subst this; exact wk rfl
    rw [if_neg c0] at h
    by_cases c1 : c ≤ 8
    · rw [if_pos c1] at h
      obtain ⟨u, h1, h2⟩ := bind_inv h
      have := Res.ok.inj h2; subst this
      exact setck h1 rfl
    rw [if_neg c1] at h
    by_cases c2 : c = 10
    · rw [if_pos c2] at h
      obtain ⟨u, h1, h2⟩ := bind_inv h
      have := Res.ok.inj h2; subst this
      exact (lengths_wk h1).trans (ite_wk (wk rfl) (wk rfl))
    rw [if_neg c2] at h
    by_cases c3 : c = 12
    · rw [if_pos c3] at h
      obtain ⟨u, h1, h2⟩ := bind_inv h
      have := Res.ok.inj h2; subst this
      exact wk rfl
    rw [if_neg c3] at h
    have := Res.ok.inj h; subst this; exact wk rfl
  · refine lift (fun t ht => ?_) h
    obtain ⟨a, h1, ht⟩ := bind_inv ht
    obtain ⟨b, h2, ht⟩ := bind_inv ht
    have e1 : WKeeps s a := by
      split at h1
      · exact setBs_wk h1
      · cases h1; exact wk rfl
    have e2 : WKeeps a b := by
      repeat' split at h2
      · have := Res.ok.inj h2; subst this; exact wk rfl
      · exact wkL (setBs_wk h2) rfl
      · have := Res.ok.inj h2; subst this; exact wk rfl
      · cases h2; exact wk rfl
    refine (e1.trans e2).trans ?_
    split at ht
    · exact wkL (setBs_wk ht) rfl
    · cases ht; exact wk rfl
  · unfold wrCnt1 at h
    by_cases c0 : c = 0
    · rw [if_pos c0] at h
      have := Res.ok.inj h; subst this; exact wk rfl
    rw [if_neg c0] at h
    by_cases c1 : c ≤ 8
    · rw [if_pos c1] at h
      obtain ⟨u, h1, h2⟩ := bind_inv h
      have := Res.ok.inj h2; subst this
      exact setck h1 rfl
    rw [if_neg c1] at h
    by_cases c2 : c = 9 ∨ c = 10
    · rw [if_pos c2] at h
      obtain ⟨u, h1, h2⟩ := bind_inv h
      have := Res.ok.inj h2; subst this
      exact (lengths_wk h1).trans (wk rfl)
    rw [if_neg c2] at h
    have := Res.ok.inj h; subst this; exact wk rfl
  · refine lift (fun t ht => ?_) h
    have := Res.ok.inj ht; subst this
    exact ite_wk (wk rfl) (wk rfl)
  · refine lift (fun t ht => ?_) h
    unfold wrKey at ht
    repeat' split at ht
    · obtain ⟨u, h1, h2⟩ := bind_inv ht
      have := Res.ok.inj h2; subst this
      exact setck h1 rfl
    all_goals (have := Res.ok.inj ht; subst this; exact wk rfl)
  · refine lift (fun t ht => ?_) h
    obtain ⟨y, h1, h2⟩ := bind_inv ht
    have e1 : WKeeps s y := by
      split at h1
      · exact overrun_wk h1
      · have := Res.ok.inj h1; subst this
        exact wk rfl
    have := Res.ok.inj h2; subst this
    exact e1.trans (ite_wk (wk rfl) (wk rfl))
  · refine lift (fun t ht => ?_) h
    unfold wrData at ht
    repeat' split at ht
    · obtain ⟨u, h1, h2⟩ := bind_inv ht
      have := Res.ok.inj h2; subst this
      exact setck h1 rfl
    all_goals (have := Res.ok.inj ht; subst this; exact wk rfl)
  · have := Res.ok.inj h; subst this; exact wk rfl
  · have := Res.ok.inj h; subst this; exact wk rfl

/-- Writing a byte keeps the size of the buffer, the file and the mark that tells the buffer has changed. -/
theorem writeByte_wk {s s' : S} {io io' : Io} {r : Bool} (h : writeByte s io = .ok (s', r, io')) : WKeeps s s' := by
  unfold writeByte at h
  split at h
  · have := Res.ok.inj h; cases this; exact wk rfl
  · obtain ⟨x, h1, h2⟩ := bind_inv h
    have e : WKeeps s (wrIx s) := ite_wk (wk rfl) (wk rfl)
    have e1 : WKeeps s x.1 := e.trans (wkL (wrSwitch_wk h1) rfl)
    have h3 := Res.ok.inj h2
    unfold wrOut at h3
    split at h3
    · cases h3; exact e1.trans (wk rfl)
    · cases h3; exact e1

end Verif.Dasd
