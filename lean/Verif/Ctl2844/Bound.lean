import Verif.Ctl2844.Bus

/-!
# The 2844: the address of the next microinstruction
-/

namespace Verif.Ctl2844

theorem aBus_WX {c c' : Ctx} {w : Word} (h : aBus c w = .ok c') : c'.WX = c.WX := by
  unfold aBus at h
  split at h
  all_goals first
    | (cases h; rfl)
    | (split at h
       · cases h
       · cases h; rfl)

theorem driveTags_WX {c c' : Ctx} (h : driveTags c = .ok c') : c'.WX = c.WX := by
  unfold driveTags at h
  split at h
  · split at h
    · cases h
    · cases h; rfl
  · generalize ofRes _ = o at h
    cases o with
    | ok d => cases h; rfl
    | null => cases h
    | oob => cases h
    | drive => cases h
    | undef => cases h

theorem dest_WX {c c' : Ctx} {w : Word} (h : dest c w = .ok c') : c'.WX = c.WX := by
  unfold dest at h
  split at h
  all_goals first
    | (cases h; rfl)
    | exact (driveTags_WX h).trans rfl

theorem flags_WX (c : Ctx) (cs : Nat) : (flags c cs).WX = c.WX := by
  unfold flags
  split <;> first | rfl | (split <;> rfl)

theorem keepCarry_WX (c : Ctx) (cc : Nat) : (keepCarry c cc).WX = c.WX := by
  unfold keepCarry
  split <;> rfl

/-- An address of control storage. -/
def InRos (t : T) : Prop := t &&& 0xf000#16 = 0#16

theorem InRos.lt {t : T} (h : InRos t) : t.toNat < 4096 := by
  unfold InRos at h
  have h1 : t = t &&& 0x0fff#16 := by
    apply BitVec.eq_of_getLsbD_eq
    intro i hi
    have := congrArg (fun x => x.getLsbD i) h
    simp only [BitVec.getLsbD_and] at this ⊢
    have h2 : ∀ i : Fin 16, (0xf000#16 : T).getLsbD i.val = !(0x0fff#16 : T).getLsbD i.val := by decide
    have h3 := h2 ⟨i, hi⟩
    simp only at h3
    rw [h3] at this
    cases ht : t.getLsbD i
    · simp
    · rw [ht] at this
      simpa using this
  rw [h1, BitVec.toNat_and]
  exact Nat.lt_of_le_of_lt Nat.and_le_right (by decide)

theorem InRos.or {x y : T} (hx : InRos x) (hy : InRos y) : InRos (x ||| y) := by
  unfold InRos at *
  have : (x ||| y) &&& 0xf000#16 = (x &&& 0xf000#16) ||| (y &&& 0xf000#16) := by
    apply BitVec.eq_of_getLsbD_eq
    intro i _
    simp [Bool.and_or_distrib_right]
  rw [this, hx, hy]
  simp

theorem InRos.and {x y : T} (hy : InRos y) : InRos (x &&& y) := by
  unfold InRos at *
  rw [BitVec.and_assoc, hy]
  simp

theorem inRos_of_lt {n : Nat} (h : n < 4096) : InRos (BitVec.ofNat 16 n) := by
  unfold InRos
  apply BitVec.eq_of_getLsbD_eq
  intro i hi
  rw [BitVec.getLsbD_and, BitVec.getLsbD_ofNat]
  by_cases h12 : 12 ≤ i
  · have : n.testBit i = false := Nat.testBit_lt_two_pow (Nat.lt_of_lt_of_le h (show 2 ^ 12 ≤ 2 ^ i from Nat.pow_le_pow_right (by decide) h12))
    simp [this]
  · have : ∀ i : Fin 16, i.val < 12 → (0xf000#16 : T).getLsbD i.val = false := by decide
    rw [this ⟨i, hi⟩ (show i < 12 by omega)]
    simp

theorem inRos_shift {n : Nat} (h : n < 16) : InRos (BitVec.ofNat 16 n <<< 8) := by
  have : ∀ n : Fin 16, InRos (BitVec.ofNat 16 n.val <<< 8) := by unfold InRos; decide
  exact this ⟨n, h⟩

theorem next_inRos (c : Ctx) (w : Word) (hn : w.cn < 4096) (hb : w.bp < 16) : InRos (next c w) := by
  have h1 : InRos ((c.WX &&& 0xe00#16) ||| BitVec.ofNat 16 w.cn ||| (BitVec.ofNat 16 w.bp <<< 8)) :=
    ((InRos.and (by unfold InRos; decide)).or (inRos_of_lt hn)).or (inRos_shift hb)
  have h2 : InRos (nextHi c w) := by
    unfold nextHi
    dsimp only
    split
    · refine InRos.or (InRos.and (by unfold InRos; decide)) (inRos_shift ?_)
      exact Nat.lt_of_le_of_lt Nat.and_le_right (by decide)
    · split
      · exact h1.or (by unfold InRos; decide)
      · exact h1
  unfold next
  split
  · exact h2.or (by unfold InRos; decide)
  · exact h2

/-- One microinstruction goes to another word of control storage. -/
theorem exec_inRos {w : Word} {c c' : Ctx} (hn : w.cn < 4096) (hb : w.bp < 16) (h : exec w c = .ok c') : InRos c'.WX := by
  unfold exec at h
  cases ha : aBus { c with WX := next c w, Bbus := bBus c w } w with
  | ok c1 =>
    rw [ha, Out.bind_ok] at h
    cases hd : dest (compute c1 w (next c w)) w with
    | ok c2 =>
      rw [hd, Out.bind_ok] at h
      cases h
      rw [flags_WX, keepCarry_WX, dest_WX hd]
      unfold compute
      dsimp only
      split
      · refine InRos.or (InRos.and (by unfold InRos; decide)) ?_
        unfold InRos
        apply BitVec.eq_of_getLsbD_eq
        intro i hi
        rw [BitVec.getLsbD_and, BitVec.getLsbD_setWidth]
        by_cases h8 : i < 8
        · have : ∀ i : Fin 16, i.val < 8 → (0xf000#16 : T).getLsbD i.val = false := by decide
          rw [this ⟨i, hi⟩ h8]
          simp
        · rw [BitVec.getLsbD_of_ge _ i (by omega)]
          simp
      · exact next_inRos c w hn hb
    | null => rw [hd] at h; cases h
    | oob => rw [hd] at h; cases h
    | drive => rw [hd] at h; cases h
    | undef => rw [hd] at h; cases h
  | null => rw [ha] at h; cases h
  | oob => rw [ha] at h; cases h
  | drive => rw [ha] at h; cases h
  | undef => rw [ha] at h; cases h

theorem ros_bounds (n : Nat) : (ros n).cn < 4096 ∧ (ros n).bp < 16 := by
  unfold ros decode
  exact ⟨Nat.lt_of_lt_of_le (Nat.mod_lt _ (by decide)) (by decide), Nat.lt_of_lt_of_le (Nat.mod_lt _ (by decide)) (by decide)⟩

/-! ## The drives -/

theorem ofRes_oob {α : Type} (r : Card.Res α) : ofRes r ≠ .oob := by
  cases r <;> exact fun h => by cases h

theorem bind_oob {α β : Type} {x : Out α} {f : α → Out β} (h : x.bind f = .oob) : x = .oob ∨ ∃ a, x = .ok a ∧ f a = .oob := by
  cases x with
  | ok a => exact .inr ⟨a, rfl, h⟩
  | oob => exact .inl rfl
  | null => cases h
  | drive => cases h
  | undef => cases h

theorem bind_some {α β : Type} {x : Out α} {f : α → Out β} {b : β} (h : x.bind f = .ok b) : ∃ a, x = .ok a ∧ f a = .ok b := by
  cases x with
  | ok a => exact ⟨a, rfl, h⟩
  | oob => cases h
  | null => cases h
  | drive => cases h
  | undef => cases h

theorem unset_oob (k : Bool) (f : Dasd.Io → Card.Res (Dasd.S × Bool × Dasd.Io)) (x y : Dasd.Io) : unset k f x y ≠ .oob := by
  intro h
  unfold unset at h
  rcases bind_oob h with h | ⟨a, _, h⟩
  · exact ofRes_oob _ h
  · rcases bind_oob h with h | ⟨b, _, h⟩
    · exact ofRes_oob _ h
    · split at h <;> cases h

theorem burst_WX (c : Ctx) (am : Bool) (data : B) : (burst c am data).WX = c.WX := by
  unfold burst
  split
  · split <;> rfl
  · rfl

theorem transfer_WX (c : Ctx) (i : BitVec 3) (r : Bool) (x : Dasd.S × Bool × Dasd.Io) : (transfer c i r x).WX = c.WX := by
  obtain ⟨d, b, io⟩ := x
  unfold transfer
  dsimp only
  split <;> split <;> first | rfl | exact burst_WX _ _ _

theorem selDrive_WX {c c' : Ctx} {i : BitVec 3} {d : Dasd.S} (h : selDrive c i d = .ok c') : c'.WX = c.WX := by
  unfold selDrive at h
  split at h
  · obtain ⟨a, _, h⟩ := bind_some h
    cases h
    exact transfer_WX _ _ _ _
  · split at h
    · obtain ⟨a, _, h⟩ := bind_some h
      cases h
      exact transfer_WX _ _ _ _
    · cases h
      split <;> rfl

theorem selDrive_oob {c : Ctx} {i : BitVec 3} {d : Dasd.S} : selDrive c i d ≠ .oob := by
  intro h
  unfold selDrive at h
  split at h
  · rcases bind_oob h with h | ⟨_, _, h⟩
    · exact unset_oob _ _ _ _ h
    · cases h
  · split at h
    · rcases bind_oob h with h | ⟨_, _, h⟩
      · exact unset_oob _ _ _ _ h
      · cases h
    · cases h

theorem attention_WX (c : Ctx) (i : BitVec 3) : (attention c i).WX = c.WX := by
  unfold attention
  split
  · rfl
  · split <;> rfl

theorem walkOne_WX {c c' : Ctx} {i : BitVec 3} (h : walkOne c i = .ok c') : c'.WX = c.WX := by
  unfold walkOne at h
  split at h
  · cases h; rfl
  · obtain ⟨c1, h1, h2⟩ := bind_some h
    cases h2
    rw [attention_WX]
    split at h1
    · exact selDrive_WX h1
    · cases h1; rfl

theorem walkOne_oob {c : Ctx} {i : BitVec 3} : walkOne c i ≠ .oob := by
  intro h
  unfold walkOne at h
  split at h
  · cases h
  · rcases bind_oob h with h | ⟨_, _, h⟩
    · split at h
      · exact selDrive_oob h
      · cases h
    · cases h

theorem walkFrom_WX {l : List (BitVec 3)} {c c' : Ctx} (h : walkFrom c l = .ok c') : c'.WX = c.WX := by
  induction l generalizing c with
  | nil => cases h; rfl
  | cons i l ih =>
    obtain ⟨c1, h1, h2⟩ := bind_some h
    rw [ih h2, walkOne_WX h1]

theorem walkFrom_oob {l : List (BitVec 3)} {c : Ctx} : walkFrom c l ≠ .oob := by
  induction l generalizing c with
  | nil => exact fun h => by cases h
  | cons i l ih =>
    intro h
    rcases bind_oob h with h | ⟨_, _, h⟩
    · exact walkOne_oob h
    · exact ih h

theorem aBus_oob {c : Ctx} {w : Word} : aBus c w ≠ .oob := by
  intro h
  unfold aBus at h
  split at h
  all_goals first
    | (cases h; done)
    | (split at h <;> cases h)

theorem driveTags_oob {c : Ctx} : driveTags c ≠ .oob := by
  intro h
  unfold driveTags at h
  split at h
  · split at h <;> cases h
  · rcases bind_oob h with h | ⟨_, _, h⟩
    · exact ofRes_oob _ h
    · cases h

theorem dest_oob {c : Ctx} {w : Word} : dest c w ≠ .oob := by
  intro h
  unfold dest at h
  split at h
  all_goals first
    | exact driveTags_oob h
    | cases h

theorem exec_oob {w : Word} {c : Ctx} : exec w c ≠ .oob := by
  intro h
  unfold exec at h
  rcases bind_oob h with h | ⟨_, _, h⟩
  · exact aBus_oob h
  · rcases bind_oob h with h | ⟨_, _, h⟩
    · exact dest_oob h
    · cases h

/-- A microinstruction fetched from control storage is followed by another. -/
theorem step_inRos {c : Ctx} (h : InRos c.WX) : step ros c ≠ .oob ∧ ∀ c', step ros c = .ok c' → InRos c'.WX := by
  constructor
  · intro hs
    unfold step at hs
    rcases bind_oob hs with hs | ⟨c1, h1, hs⟩
    · exact walkFrom_oob hs
    · have : c1.WX = c.WX := (walkFrom_WX (c := { c with SC := 0#8 }) h1).trans rfl
      rw [this, if_pos h.lt] at hs
      exact exec_oob hs
  · intro c' hs
    unfold step at hs
    obtain ⟨c1, h1, hs⟩ := bind_some hs
    split at hs
    · exact exec_inRos (ros_bounds _).1 (ros_bounds _).2 hs
    · cases hs

/-! ## The channel's cycles -/

theorem dev_WX (bo : T) (s : IF) : (dev bo s).c.WX = s.c.WX ∨ (dev bo s).c.WX = 0#16 := by
  have h1 : ∀ s, (ifAddr bo s).c.WX = s.c.WX := by
    intro s; unfold ifAddr; split
    · split
      · split <;> rfl
      · rfl
    · rfl
  have h2 : ∀ s, (ifDrop s).c.WX = s.c.WX := by intro s; unfold ifDrop; split <;> rfl
  have h3 : ∀ s, (ifSta s).c.WX = s.c.WX := by intro s; unfold ifSta; split <;> rfl
  have h4 : ∀ s, (ifSel s).c.WX = s.c.WX := by intro s; rfl
  have h5 : ∀ s, (ifAdrIn s).c.WX = s.c.WX := by
    intro s; unfold ifAdrIn; split
    · split <;> rfl
    · rfl
  have h6 : ∀ s, (ifStaIn s).c.WX = s.c.WX := by
    intro s; unfold ifStaIn; split
    · dsimp only; split <;> split <;> rfl
    · rfl
  have h7 : ∀ s, (ifOprIn s).c.WX = s.c.WX := by intro s; unfold ifOprIn; split <;> rfl
  have h8 : ∀ s, (ifReq s).c.WX = s.c.WX := by
    intro s; unfold ifReq; dsimp only; split <;> split <;> rfl
  have h9 : ∀ s, (ifPoll s).c.WX = s.c.WX := by intro s; unfold ifPoll; split <;> rfl
  have h10 : ∀ s, (ifEnd s).c.WX = s.c.WX := by
    intro s; unfold ifEnd; split
    · dsimp only; split <;> split <;> rfl
    · rfl
  have h11 : ∀ s, (ifData bo s).c.WX = s.c.WX := by
    intro s; unfold ifData; split
    · dsimp only; split <;> split <;> split <;> rfl
    · rfl
  unfold dev
  split
  · exact .inr rfl
  · refine .inl ?_
    rw [h11, h10, h9, h8, h7, h6, h5, h4, h3, h2, h1]

/-- No schedule takes the microprogram out of control storage. -/
theorem run_inRos (es : List Ev) (s : Line) (h : InRos s.c.WX) :
    s.run es ≠ .oob ∧ ∀ s', s.run es = .ok s' → InRos s'.c.WX := by
  induction es generalizing s with
  | nil => exact ⟨(fun h => by cases h), fun s' hs => by cases hs; exact h⟩
  | cons e es ih =>
    cases e with
    | micro =>
      obtain ⟨h1, h2⟩ := step_inRos h
      constructor
      · intro hs
        rcases bind_oob hs with hs | ⟨s1, h3, hs⟩
        · rcases bind_oob hs with hs | ⟨_, _, hs⟩
          · exact h1 hs
          · cases hs
        · obtain ⟨c1, h4, h5⟩ := bind_some h3
          cases h5
          exact (ih _ (h2 c1 h4)).1 hs
      · intro s' hs
        obtain ⟨s1, h3, hs⟩ := bind_some hs
        obtain ⟨c1, h4, h5⟩ := bind_some h3
        cases h5
        exact (ih _ (h2 c1 h4)).2 s' hs
    | bus out bo =>
      have hw : InRos (dev bo ⟨s.c, s.tin ||| (out &&& outTags), s.bin⟩).c.WX := by
        rcases dev_WX bo ⟨s.c, s.tin ||| (out &&& outTags), s.bin⟩ with hx | hx
        · rw [hx]; exact h
        · rw [hx]; unfold InRos; decide
      exact ih _ hw

end Verif.Ctl2844
